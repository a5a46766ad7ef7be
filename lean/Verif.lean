import Verif.Model.Visitor
import Verif.Model.Narrow
import Verif.Props.Framing
import Verif.Proof.RoundTrip
import Verif.Model.Attr
import Verif.Model.OptionStruct
import Verif.Model.Fmt
import Verif.Props.Layouts
import Verif.Props.Streams
import Verif.Proof.Post
import Verif.Props.Parts
import Verif.Proof.Inv
import Verif.Props.Group
import Verif.Props.Config
import Verif.Props.Bits
import Verif.Props.Prims
import Verif.Props.Visit
import Verif.Proof.Rel
import Verif.Proof.Sim
import Verif.Proof.Prefix
import Verif.Proof.Align
import Verif.Props.Fast
import Verif.Props.Locality
import Verif.Props.Chunking
import Verif.Proof.Utf8
import Verif.Props.Values
import Verif.Spec.KAttr
import Verif.Proof.Attr
import Verif.Props.Attr
import Verif.Proof.Cows
import Verif.Proof.Hand
import Verif.Props.Borrow
import Verif.Proof.Patchy
import Verif.Props.Empty
import Verif.Props.Debug
import Verif.Check.Vectors
import Verif.Proof.Sound
import Verif.Proof.SoundBody
import Verif.Props.Sound
import Verif.Model.User
import Verif.Model.Raw
import Verif.Spec.User
import Verif.Proof.Kept
import Verif.Proof.User
import Verif.Proof.Flow
import Verif.Proof.FlowRec
import Verif.Proof.FlowProg
import Verif.Props.User
import Verif.Proof.Modest
import Verif.Props.Reserve
import Verif.Props.ByHand
import Verif.Proof.Memory
import Verif.Spec.Agree
import Verif.Proof.Place
import Verif.Proof.Cfg
import Verif.Props.Memory
import Verif.Props.Place
import Verif.Props.Relevant
import Verif.Props.Hostile
import Verif.Spec.Content
import Verif.Props.Content
import Verif.Proof.Drain
import Verif.Props.Drain
import Verif.Props.Exact
import Verif.Props.Poke
import Verif.Spec.Show
import Verif.Props.Show
import Verif.Spec.Session
import Verif.Model.Stored
import Verif.Props.Session
import Verif.Props.Stored
import Verif.Spec.Contig
import Verif.Proof.Contig
import Verif.Props.Contig
import Verif.Spec.Work
import Verif.Proof.Work
import Verif.Proof.Work2
import Verif.Props.Work
import Verif.Proof.Shift
import Verif.Props.Loop
import Verif.Props.Cost
import Verif.Props.StoredShow
import Verif.Props.Custom
import Verif.Proof.Plain
import Verif.Proof.Raw
import Verif.Proof.Hostile
import Verif.Props.NativeFlag
import Verif.Model.Heap
import Verif.Proof.Kin
import Verif.Proof.Heap
import Verif.Proof.Grow
import Verif.Proof.Snug
import Verif.Props.Heap
import Verif.Model.Fuzz
import Verif.Props.Fuzz
import Verif.Proof.Says
import Verif.Props.Cause
import Verif.Proof.Narrow
import Verif.Props.Narrow
import Verif.Model.Mended
import Verif.Spec.Ideal
import Verif.Spec.KernelAll
import Verif.Proof.Mended
import Verif.Proof.MendedRec
import Verif.Proof.Keeps
import Verif.Proof.MendedTop
import Verif.Proof.IReads
import Verif.Proof.IPlain
import Verif.Proof.IRoundTrip
import Verif.Props.Mended
import Verif.Model.MendedAttr
import Verif.Proof.MendedAttr
import Verif.Spec.SessionAll
import Verif.Props.MendedAll
import Verif.Spec.Piped
import Verif.Proof.Piped
import Verif.Props.Piped
import Verif.Spec.Readable
import Verif.Proof.Judges
import Verif.Props.Readable
import Verif.Props.Ahead
import Verif.Model.MendedRest
import Verif.Props.MendedRest
import Verif.Spec.Drip
import Verif.Proof.Drip
import Verif.Props.Through
import Verif.Spec.Moored
import Verif.Proof.Moored
import Verif.Proof.Steady
import Verif.Props.Moored
import Verif.Model.MendedUser
import Verif.Spec.Sure
import Verif.Proof.Sure
import Verif.Proof.SureRec
import Verif.Proof.SureProg
import Verif.Props.MendedUser
import Verif.Model.MendedNarrow
import Verif.Proof.Suits
import Verif.Proof.SuitsRec
import Verif.Proof.SuitsTop
import Verif.Props.MendedNarrow
import Verif.Spec.KernelExtra
import Verif.Proof.ISound
import Verif.Proof.ISoundBody
import Verif.Proof.IExact
import Verif.Props.MendedExact
import Verif.Spec.CodeLayout
import Verif.Proof.PExact
import Verif.Proof.PExactBody
import Verif.Props.PipedExact
import Verif.Spec.MemoryLayout
import Verif.Proof.Inplace
import Verif.Proof.LExact
import Verif.Proof.LExactBody
import Verif.Props.MemoryExact
import Verif.Spec.PieceLayout
import Verif.Proof.Woven
import Verif.Proof.WExact
import Verif.Proof.WExactBody
import Verif.Proof.Sewn
import Verif.Proof.Weave
import Verif.Props.PieceExact
import Verif.Props.AttrExact
import Verif.Props.LoopExact
import Verif.Spec.Wrong
import Verif.Proof.WErr
import Verif.Proof.WErrBody
import Verif.Proof.WErrSample
import Verif.Proof.WErrRecord
import Verif.Props.ErrorExact
import Verif.Props.LiveExact
import Verif.Props.RingExact
import Verif.Props.FrameExact
import Verif.Props.GivenExact
import Verif.Props.PlaceExact
import Verif.Props.PiecesUser
import Verif.Props.Advance
