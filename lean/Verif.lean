import Verif.Base
import Verif.Props.ByteHandler
import Verif.Props.Vector2D
import Verif.Props.BitMatrix
import Verif.Props.BitMatrixRatio
import Verif.Props.Serialize
import Verif.Props.Crc32
import Verif.Props.Base64
import Verif.Props.Rle
import Verif.Props.LayoutMatrix
import Verif.Props.FileHistory
import Verif.Props.Moved
import Verif.Props.LayoutConverter
import Verif.Props.Zond
import Verif.Props.Print
import Verif.Props.Generator
import Verif.Props.Msk
import Verif.Props.GdsiiHelpers
import Verif.Props.GdsiiReader
import Verif.Props.GdsiiFile
import Verif.Props.Fragment
import Verif.Props.LayoutPrinter
import Verif.Props.GdsiiAny
import Verif.Props.GdsiiPrefix
import Verif.Props.GdsiiUb
import Verif.Props.GdsiiSkip
import Verif.Props.LayoutDestroy
import Verif.Model.Client
import Verif.Spec.Client
import Verif.Props.ZondNear
import Verif.Props.Client
import Verif.Spec.GdsiiDark
import Verif.Props.GdsiiDark
import Verif.Model.GeneratorFragments
import Verif.Spec.FragmentPlan
import Verif.Props.FragmentPlan
import Verif.Model.GdsiiPropValue
import Verif.Props.GdsiiPropValue
import Verif.Spec.Base64Decode
import Verif.Props.Base64Decode
import Verif.Props.ZondCover
import Verif.Spec.ZondPart
import Verif.Proofs.ZondPart
import Verif.Props.ZondPart
import Verif.Spec.HashText
import Verif.Props.HashText
import Verif.Proofs.Crc32Search
import Verif.Proofs.Crc32Three
import Verif.Proofs.Crc32Logs
import Verif.Proofs.Crc32Two
import Verif.Props.Crc32Three
import Verif.Props.Crc32Two
import Verif.Spec.Similar
import Verif.Props.Similar
import Verif.Props.SimilarLocal
import Verif.Model.Lookup
import Verif.Spec.Lookup
import Verif.Props.Lookup
import Verif.Props.LookupFiles
import Verif.Props.FragmentExact
import Verif.Spec.Enlarge
import Verif.Props.Enlarge
import Verif.Model.ReaderLife
import Verif.Spec.ReaderLife
import Verif.Props.ReaderLife
import Verif.Model.ZondDirect
import Verif.Props.ZondDirect
import Verif.Spec.Transposed
import Verif.Proofs.Transposed
import Verif.Props.Transposed
import Verif.Model.EncodeMemory
import Verif.Props.EncodeMemory
import Verif.Model.AssignMemory
import Verif.Props.AssignMemory
import Verif.Props.EnlargeDouble
import Verif.Props.ZondClear
import Verif.Props.Scaled
import Verif.Model.Concurrent
import Verif.Spec.Concurrent
import Verif.Props.Concurrent
import Verif.Spec.Binary64
import Verif.Props.Range
import Verif.Model.MskMemory
import Verif.Spec.MskMemory
import Verif.Proofs.MskMemory
import Verif.Props.MskMemory
import Verif.Spec.Names
import Verif.Props.Names
import Verif.Spec.ZondFresh
import Verif.Props.ZondFresh
import Verif.Props.Unchecked
import Verif.Spec.Cut
import Verif.Props.Cut
import Verif.Props.Same
import Verif.Props.CutFile
import Verif.Props.CutFileRows
import Verif.Props.Union
import Verif.Props.Windows
import Verif.Props.WindowsFile
import Verif.Props.Zoom
import Verif.Props.Area
import Verif.Props.AreaFile
import Verif.Props.AreaLookup
import Verif.Props.Ranking
import Verif.Model.Sharing
import Verif.Spec.Sharing
import Verif.Props.Sharing
import Verif.Witness.Matrix
import Verif.Witness.Text
import Verif.Witness.Generator
import Verif.Witness.Zond
import Verif.Witness.Plan
import Verif.Witness.Gdsii
import Verif.Witness.Client
import Verif.Witness.Relate
import Verif.Witness.Cut
import Verif.Props.Rewrite
import Verif.Props.ShortText
import Verif.Props.TextContent
import Verif.Props.TextSize
import Verif.Spec.TextSize
import Verif.Witness.Rewrite
import Verif.Witness.ShortText
import Verif.Witness.TextContent
import Verif.Witness.TextSize
import Verif.Witness.Zoom
import Verif.Spec.Flatten
import Verif.Props.Flatten
import Verif.Witness.Flatten
import Verif.Spec.Flattened
import Verif.Props.Flattened
import Verif.Witness.Flattened
import Verif.Spec.Replaced
import Verif.Props.PathPoints
import Verif.Witness.PathPoints
import Verif.Props.RectanglesOnly
import Verif.Witness.RectanglesOnly
import Verif.Props.Request
import Verif.Witness.Request
import Verif.Model.CollectMemory
import Verif.Proofs.CollectMemory
import Verif.Props.CollectMemory
import Verif.Witness.CollectMemory
import Verif.Model.ZondNull
import Verif.Proofs.ZondNull
import Verif.Props.ZondNull
import Verif.Witness.ZondNull
import Verif.Model.HalfCopied
import Verif.Props.HalfCopied
import Verif.Witness.HalfCopied
