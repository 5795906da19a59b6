import Verif.Base.Bytes
import Verif.Iter.Props
import Verif.Endian.Props
import Verif.SeqNum.Props
import Verif.Random.Props
import Verif.Event.Props
import Verif.Event.Throw
import Verif.Event.ThrowLemmas
import Verif.Event.ThrowProps
import Verif.Event.Destroy
import Verif.Event.DestroyProps
import Verif.Chrono.Props
import Verif.Sim.Props
import Verif.Buf.Props
import Verif.Zc.Props
import Verif.ZcIter.Props
import Verif.Tag.Props
import Verif.Packet.Props
import Verif.Address.Props
import Verif.Ptr.Props
import Verif.Query.Props
import Verif.Stat.Props
import Verif.Stat.Float
import Verif.Stat.FloatProps
import Verif.Log.Record
import Verif.Log.Source
import Verif.Util.VecProps
import Verif.Util.MatProps
import Verif.Util.Lex
import Verif.TestFw.Props
import Verif.Fixed.Props
import Verif.Chrono.Arith
import Verif.Chrono.Text
import Verif.Message.Props
import Verif.Ptr.Kinds
import Verif.Message.Wire
import Verif.Util.ArrProps
import Verif.Util.Hex
import Verif.TestFw.Close
import Verif.TestFw.CloseDouble
import Verif.TestFw.CloseDoubleProps
import Verif.Stat.Near
import Verif.Chrono.Format
import Verif.Ptr.Sink
import Verif.Log.Functor
import Verif.Log.Macro
import Verif.Packet.Stack
import Verif.Buf.Family
import Verif.Zc.Family
import Verif.Packet.Sides
import Verif.Random.Period
import Verif.Random.SharedProps
import Verif.Buf.ConstProps
import Verif.Zc.ConstProps
import Verif.ZPacket.Sides
import Verif.Sim.Clock
import Verif.ZPacket.Stack
import Verif.Packet.Frame
import Verif.ZPacket.Frame
import Verif.Random.ParamsProps
import Verif.Sim.ThrowProps
import Verif.Util.VecThrowProps
import Verif.Event.LifeProps
import Verif.Sim.NestProps
import Verif.Util.MatLifeProps
import Verif.Buf.WordProps
import Verif.Zc.WordProps
import Verif.Util.ArrThrowProps
import Verif.Util.MatThrowProps
import Verif.Util.Mem
import Verif.Util.MemProps
import Verif.Tag.ThrowProps
import Verif.Packet.ThrowProps
import Verif.ZPacket.ThrowProps
import Verif.Sim.WordProps
import Verif.Log.NetProps
import Verif.Log.NetVals
import Verif.Log.Typed
import Verif.Log.Life
import Verif.Log.LifeLemmas
import Verif.Log.LifeProps
import Verif.Tag.Word
import Verif.Tag.WordLemmas
import Verif.Tag.WordProps
import Verif.Event.Visit
import Verif.Event.VisitLemmas
import Verif.Event.VisitProps
import Verif.Stat.Probe
import Verif.Stat.ProbeProps
import Verif.Stat.Special
import Verif.Stat.SpecialProps
import Verif.Query.PtrEq
import Verif.Query.PtrEqProps
import Verif.Sim.FreeProps
import Verif.Sim.FreeAlive
import Verif.Sim.DropProps
import Verif.Sim.HoldProps
import Verif.Ptr.Heap
import Verif.Ptr.HeapLemmas
import Verif.Sim.Own
import Verif.Sim.OwnLemmas
import Verif.Sim.OwnProps
import Verif.Random.Getters
import Verif.Random.GettersProps
import Verif.Log.Own
import Verif.Log.OwnLemmas
import Verif.Log.OwnSteps
import Verif.Log.OwnProps
import Verif.Log.FailedLemmas
import Verif.Log.FailedProps
import Verif.Stat.Short
import Verif.Stat.ShortProps
import Verif.Stat.Typed
import Verif.Stat.TypedProps
import Verif.Stat.Own
import Verif.Stat.OwnLemmas
import Verif.Stat.OwnProps
import Verif.Ptr.BuildProps
import Verif.Log.NetFilter
import Verif.Log.Reenter
import Verif.Log.ReenterLemmas
import Verif.Log.ReenterSafe
import Verif.Log.ReenterProps
import Verif.Util.MatIter
import Verif.Util.MatIterProps
import Verif.Log.StreamRe
import Verif.Log.StreamReLemmas
import Verif.Log.StreamReSafe
import Verif.Log.StreamReProps
import Verif.Log.ReCalls
import Verif.Log.StreamReCalls
import Verif.Audit
