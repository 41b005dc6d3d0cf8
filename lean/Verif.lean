import Verif.Props.TimeGaps
import Verif.Props.Mesh
import Verif.Props.FillHoles
import Verif.Props.Components
import Verif.Props.Filter
import Verif.Props.Overlap
import Verif.Props.Partition
import Verif.Props.SplitMerge
import Verif.Props.Rename
import Verif.Props.Centroid
import Verif.Props.MeshCentroid
import Verif.Props.Parallel
import Verif.Props.MeshMerge
import Verif.Props.Checkpoint
import Verif.Props.Pipeline
import Verif.Props.Tracker
import Verif.Props.GridArea
import Verif.Props.Climatology
import Verif.Props.Detrend
import Verif.Props.Threshold
import Verif.Props.Preprocess
import Verif.Props.Support
import Verif.Props.NewData
import Verif.Props.OffMask
import Verif.Props.Monotone
import Verif.Props.Orientation
import Verif.Props.Percentiles
import Verif.Props.Plot
import Verif.Props.Movie
import Verif.Props.Extremes
import Verif.Props.Morphology
import Verif.Props.DetrendFixed
import Verif.Props.AnomalyMethods
import Verif.Props.RunStats
import Verif.Props.Cluster
import Verif.Props.Session
import Verif.Props.Separate
import Verif.Props.SeparateMesh
import Verif.Props.LogUse
import Verif.Props.Events
import Verif.Props.TempStore
import Verif.Props.TimeNames
import Verif.Props.Scale
import Verif.Props.Units
import Verif.Props.Symmetry
import Verif.Props.Float
import Verif.Props.Workflow
import Verif.Props.NameUse
import Verif.Props.Samples
import Verif.Props.Steps
import Verif.Props.Standardise
import Verif.Props.EventVars
import Verif.Props.FloatBins
import Verif.Props.StnExtremes
import Verif.Props.AreaStats
import Verif.Props.Pieces
import Verif.Props.EmptySteps
import Verif.Props.Numbering
import Verif.Props.Choice
import Verif.Props.Divided
import Verif.Props.FarAway
import Verif.Props.OtherLoggers
import Verif.Props.FarMerging
import Verif.Props.LeftOut
import Verif.Props.SeparateMerging
import Verif.Props.FarAwayMerging
import Verif.Props.FarAwayMesh
import Verif.Lemmas.Prefix
import Verif.Props.Appended
import Verif.Props.AppendedMerges
import Verif.Props.Ledger
import Verif.Props.Mirror
import Verif.Props.NoMerge
import Verif.Props.Labels
import Verif.Props.Tables
import Verif.Props.BeforeMerge
import Verif.Props.Retrack
import Verif.Props.Rows
import Verif.Model.EventCentroid
import Verif.Props.EventCentroid
import Verif.Props.EmptyTables
import Verif.Props.SeparateLedger
import Verif.Props.FarAwayLedger
import Verif.Props.LedgerLife
