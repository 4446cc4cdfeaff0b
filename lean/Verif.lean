import Verif.Basic.Nom
import Verif.Proof.Num
import Verif.Proof.Dec96
import Verif.Model.General
import Verif.Model.Editor
import Verif.Model.Metadata
import Verif.Model.Difficulty
import Verif.Model.Types
import Verif.Proof.Fields
import Verif.Props.Numbers
import Verif.Proof.KVGrammar
import Verif.Props.Sections
import Verif.Model.Lines
import Verif.Model.Colours
import Verif.Model.TimingPoints
import Verif.Model.HitObjects
import Verif.Model.StoryTypes
import Verif.Model.Cmds
import Verif.Model.Sprites
import Verif.Model.NormalEvents
import Verif.Model.Events
import Verif.Spec.Tree
import Verif.Proof.Tree
import Verif.Props.Tree
import Verif.Proof.Comb
import Verif.Proof.Lines
import Verif.Proof.Ctx
import Verif.Spec.Lines
import Verif.Proof.Colours
import Verif.Props.Lines
import Verif.Spec.Bits
import Verif.Spec.TimingPoints
import Verif.Proof.TimingPoints
import Verif.Props.TimingPoints
import Verif.Spec.HitObjects
import Verif.Proof.Pieces
import Verif.Proof.HitSample
import Verif.Proof.HitObjects
import Verif.Proof.HitObjectsRT
import Verif.Proof.HitObjectsPanic
import Verif.Props.HitObjects
import Verif.Spec.Cmds
import Verif.Proof.Cmds
import Verif.Proof.CmdsGrammar
import Verif.Proof.Trigger
import Verif.Proof.TriggerGrammar
import Verif.Proof.CmdsRT
import Verif.Proof.CmdsPanic
import Verif.Spec.Events
import Verif.Proof.EventsGrammar
import Verif.Proof.EventsRT
import Verif.Proof.EventsSection
import Verif.Props.Storyboard
import Verif.Proof.EventsPanic
import Verif.Props.Events
import Verif.Model.SectionSplit
import Verif.Model.Osb
import Verif.Model.OsuFile
import Verif.Model.Error
import Verif.Spec.File
import Verif.Proof.SectionSplit
import Verif.Proof.FileLoop
import Verif.Proof.FileTop
import Verif.Proof.FileLines
import Verif.Props.File
import Verif.Spec.FileText
import Verif.Spec.FileValue
import Verif.Proof.FileText
import Verif.Proof.FilePrint
import Verif.Proof.FileWell
import Verif.Props.FileText
import Verif.Proof.FileStable
import Verif.Spec.Variables
import Verif.Proof.Subst
import Verif.Spec.Osb
import Verif.Proof.Osb
import Verif.Proof.OsbRead
import Verif.Props.Osb
import Verif.Model.Trimmer
import Verif.Spec.Trimmer
import Verif.Proof.Trimmer
import Verif.Props.Trimmer
import Verif.Proof.Out
import Verif.Spec.Faults
import Verif.Spec.FaultsCmds
import Verif.Spec.FaultsEvents
import Verif.Spec.FaultsHits
import Verif.Proof.Faults
import Verif.Proof.FaultsCmds
import Verif.Proof.FaultsEvents
import Verif.Proof.FaultsHits
import Verif.Props.Faults
import Verif.Spec.FaultsColours
import Verif.Proof.FaultsColours
import Verif.Spec.Frames
import Verif.Proof.Frames
import Verif.Props.Frames
import Verif.Basic.DecArith
import Verif.Model.TimingPointApi
import Verif.Proof.DecArith96
import Verif.Proof.TimingPointApi
import Verif.Props.TimingPointApi
import Verif.Model.Defaults
import Verif.Props.Defaults
import Verif.Model.Messages
import Verif.Spec.Messages
import Verif.Proof.Messages
import Verif.Props.Messages
import Verif.Spec.Eras
import Verif.Proof.Eras
import Verif.Props.Eras
import Verif.Props.MessagesFile
import Verif.Props.DefaultsWhich
import Verif.Spec.Endings
import Verif.Proof.Endings
import Verif.Props.Endings
import Verif.Spec.Concat
import Verif.Proof.Concat
import Verif.Props.Concat
import Verif.Model.Constructors
import Verif.Props.Constructors
import Verif.Props.AppendOsb
import Verif.Props.OsbExact
import Verif.Spec.Edits
import Verif.Proof.Edits
import Verif.Props.Edits
import Verif.Props.EditsSections
import Verif.Props.Distinct
import Verif.Check.RepoTests
import Verif.Proof.Blanks
import Verif.Props.Blanks
import Verif.Spec.MessagesKV
import Verif.Props.MessagesKV
import Verif.Spec.Resave
import Verif.Proof.Resave
import Verif.Props.Resave
import Verif.Model.Sources
import Verif.Props.Sources
import Verif.Model.Paths
import Verif.Spec.Paths
import Verif.Props.Paths
import Verif.Proof.LinesExact
import Verif.Props.TimingPointsExact
import Verif.Props.HitObjectsExact
import Verif.Spec.FaultsVars
import Verif.Proof.FaultsVars
import Verif.Spec.MessagesAll
import Verif.Props.MessagesAll
import Verif.Spec.Fields
import Verif.Props.FieldTables
import Verif.Spec.Names
import Verif.Props.Names
import Verif.Spec.Writing
import Verif.Props.Writing
import Verif.Props.SectionsExact
import Verif.Props.EventsExact
import Verif.Proof.FileExact
import Verif.Props.FileExact
import Verif.Props.SaveAs
import Verif.Spec.StrEq
import Verif.Spec.StrEqEvents
import Verif.Proof.StrEq
import Verif.Proof.StrEqObjects
import Verif.Proof.StrEqEvents
import Verif.Props.StrEqLoads
import Verif.Model.Equality
import Verif.Spec.Equality
import Verif.Proof.Equality
import Verif.Proof.Alike
import Verif.Props.Equality
import Verif.Props.SavedAs
import Verif.Props.Saving
import Verif.Props.Release
import Verif.Spec.ValueErrors
import Verif.Props.ValueErrors
import Verif.Model.MessagesValues
import Verif.Spec.MessagesValues
import Verif.Props.MessagesValues
import Verif.Model.Windows
import Verif.Spec.Windows
import Verif.Props.Windows
import Verif.Model.Order
import Verif.Props.Order
import Verif.Model.Width
import Verif.Spec.Width
import Verif.Proof.Width
import Verif.Proof.WidthMore
import Verif.Props.Width
import Verif.Model.WidthFile
import Verif.Spec.WidthFile
import Verif.Proof.WidthFile
import Verif.Props.WidthFile
import Verif.Model.Hash
import Verif.Spec.Hash
import Verif.Proof.Hash
import Verif.Props.Hash
import Verif.Spec.Counts
import Verif.Proof.Counts
import Verif.Props.Counts
import Verif.Spec.Cut
import Verif.Proof.Cut
import Verif.Props.Cut
import Verif.Spec.SavedLines
import Verif.Proof.SavedLines
import Verif.Props.SavedLines
import Verif.Proof.SavedBoard
import Verif.Props.SavedBoard
import Verif.Spec.Letters
import Verif.Proof.Letters
import Verif.Proof.LettersBoard
import Verif.Props.Letters
import Verif.Spec.Reread
import Verif.Proof.Reread
import Verif.Props.Reread
import Verif.Spec.Sift
import Verif.Proof.Sift
import Verif.Props.Sift
