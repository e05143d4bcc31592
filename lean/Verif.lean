import Verif.Alone.Decks
import Verif.Alone.Props
import Verif.Alone.Reading
import Verif.Alone.Sample
import Verif.Alone.Spec
import Verif.Alone.Veil
import Verif.Alone.Voyages
import Verif.Base.BuddyModel
import Verif.Base.BuddyProps
import Verif.Base.BuddySpec
import Verif.Base.Columns
import Verif.Base.Model
import Verif.Base.OutModel
import Verif.Base.OutProps
import Verif.Base.OutSpec
import Verif.Base.Props
import Verif.Base.ReadCompletion
import Verif.Base.ReadInv
import Verif.Base.ReadLine
import Verif.Base.ReadModel
import Verif.Base.ReadNeeds
import Verif.Base.ReadProps
import Verif.Base.ReadSample
import Verif.Base.ReadSpec
import Verif.Base.ReadStep
import Verif.Base.RunArchive
import Verif.Base.RunChecks
import Verif.Base.RunEnd
import Verif.Base.RunFiles
import Verif.Base.RunFlags
import Verif.Base.RunHandover
import Verif.Base.RunModel
import Verif.Base.RunProps
import Verif.Base.RunSample
import Verif.Base.RunSpec
import Verif.Base.RunTrack
import Verif.Base.RunTrackSample
import Verif.Base.ShipFlags
import Verif.Base.Ships
import Verif.Base.Spec
import Verif.Buddy.Again
import Verif.Buddy.Cells
import Verif.Buddy.Check
import Verif.Buddy.Limits
import Verif.Buddy.Model
import Verif.Buddy.Radius
import Verif.Buoy.Again
import Verif.Buoy.Aground
import Verif.Buoy.Assessed
import Verif.Buoy.Bias
import Verif.Buoy.Fixes
import Verif.Buoy.Model
import Verif.Buoy.Screen
import Verif.Buoy.Speed
import Verif.Buoy.SstModel
import Verif.Buoy.Tail
import Verif.Buoy.TailProps
import Verif.Buoy.Windows
import Verif.Calendar.Lemmas
import Verif.Calendar.Model
import Verif.Calendar.Props
import Verif.Calendar.Spec
import Verif.Checks.DayTest
import Verif.Checks.Model
import Verif.Checks.Props
import Verif.Checks.Spec
import Verif.Checks.Sun
import Verif.Conform.Bias
import Verif.Conform.Drift
import Verif.Conform.Hums
import Verif.Conform.Qc
import Verif.Conform.Reports
import Verif.Conform.Sphere
import Verif.Conform.Tail
import Verif.Conform.Tools
import Verif.Conform.Windows
import Verif.Crash.Again
import Verif.Crash.Archive
import Verif.Crash.Cut
import Verif.Crash.Model
import Verif.Crash.Order
import Verif.Crash.Rerun
import Verif.Crash.Sample
import Verif.Crash.Steps
import Verif.Crash.Tracked
import Verif.Deck.Model
import Verif.Deck.Props
import Verif.Deck.Spec
import Verif.Drifter.Csv
import Verif.Drifter.Match
import Verif.Drifter.Model
import Verif.Drifter.Props
import Verif.Drifter.RoundTrip
import Verif.Drifter.Rows
import Verif.Drifter.Spec
import Verif.Feeds.Access
import Verif.Feeds.Model
import Verif.Feeds.Props
import Verif.Files.Dates
import Verif.Files.Model
import Verif.Files.Names
import Verif.Files.Select
import Verif.Grid.Clim
import Verif.Grid.Interp
import Verif.Grid.InterpValue
import Verif.Grid.Lemmas
import Verif.Grid.Model
import Verif.Grid.Props
import Verif.Grid.Spec
import Verif.Hires.Base
import Verif.Hires.Bones
import Verif.Hires.Columns
import Verif.Hires.Completion
import Verif.Hires.Decks
import Verif.Hires.Files
import Verif.Hires.Ids
import Verif.Hires.Model
import Verif.Hires.Props
import Verif.Hires.Run
import Verif.Hires.Spec
import Verif.Hums.Mixed
import Verif.Hums.Model
import Verif.Hums.Props
import Verif.Imma.Fields
import Verif.Imma.Layouts
import Verif.Imma.Model
import Verif.Imma.Read
import Verif.Imma.Record
import Verif.Imma.Sample
import Verif.Imma.Tables
import Verif.Imma.Text
import Verif.Lookup.Model
import Verif.Lookup.Props
import Verif.Near.Props
import Verif.Near.Sample
import Verif.Near.Spec
import Verif.Near.Unique
import Verif.Output.Lines
import Verif.Output.Model
import Verif.Output.Spec
import Verif.Output.Tables
import Verif.Output.Tracking
import Verif.Output.Voyages
import Verif.Parallel.Both
import Verif.Parallel.BothLemmas
import Verif.Parallel.Lemmas
import Verif.Parallel.Model
import Verif.Parallel.Props
import Verif.Py
import Verif.Queue.Model
import Verif.Queue.Props
import Verif.Report.Again
import Verif.Report.BaseQc
import Verif.Report.Model
import Verif.Report.Order
import Verif.Report.Position
import Verif.Report.Props
import Verif.Report.QcModel
import Verif.Report.Spec
import Verif.Rest.Model
import Verif.Rest.OldCases
import Verif.Rest.OldChecks
import Verif.Rest.Predict
import Verif.Rest.Print
import Verif.Rest.Reader
import Verif.Rest.Sample
import Verif.Rest.Spec
import Verif.Sphere.Between
import Verif.Sphere.Distance
import Verif.Sphere.Model
import Verif.Sphere.Spec
import Verif.Sphere.Travel
import Verif.Stats.Model
import Verif.Stats.Props
import Verif.Stats.Spread
import Verif.Track.Again
import Verif.Track.Complete
import Verif.Track.Flags
import Verif.Track.Full
import Verif.Track.FullAgain
import Verif.Track.FullBlind
import Verif.Track.Model
import Verif.Track.Order
import Verif.Track.Props
import Verif.Track.Speed
import Verif.TrackOnly.Bare
import Verif.TrackOnly.BaseQc
import Verif.TrackOnly.Decks
import Verif.TrackOnly.Files
import Verif.TrackOnly.Model
import Verif.TrackOnly.Props
import Verif.TrackOnly.Readback
import Verif.TrackOnly.Reading
import Verif.TrackOnly.Shadow
import Verif.TrackOnly.Spec
import Verif.TrackOnly.Texts
import Verif.TrackOnly.Voyages
import Verif.Tracking.Again
import Verif.Tracking.Beside
import Verif.Tracking.Complete
import Verif.Tracking.Former
import Verif.Tracking.FormerModel
import Verif.Tracking.Handover
import Verif.Tracking.Main
import Verif.Tracking.Model
import Verif.Tracking.Order
import Verif.Tracking.Output
import Verif.Tracking.Pass
import Verif.Tracking.Props
import Verif.Tracking.Rerun
import Verif.Tracking.Spec
import Verif.Voyage.Again
import Verif.Voyage.Difference
import Verif.Voyage.Elim
import Verif.Voyage.Links
import Verif.Voyage.Model
import Verif.Voyage.Pairs
import Verif.Voyage.Sat
import Verif.Voyage.Values
import Verif.Wrapper.Command
import Verif.Wrapper.Jobs
import Verif.Wrapper.Lists
import Verif.Wrapper.Model
import Verif.Wrapper.Read
import Verif.Wrapper.Restart
import Verif.Wrapper.Run
import Verif.Wrapper.RunNames
import Verif.Wrapper.Sample
import Verif.Wrapper.Schedule
import Verif.Wrapper.StepModel
import Verif.Wrapper.Steps
import Verif.Wrapper.System
import Verif.Wrapper.Together
import Verif.YM.Lemmas
import Verif.YM.Model
import Verif.YM.Props
import Verif.YM.Spec
