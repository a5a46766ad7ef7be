import Verif.Model.Visitor
/-!
# What a parsed value contains

Records hold `Cow` data. Properties compare contents only; `view` forgets whether the data is borrowed or owned.
-/
namespace Perf

def Mmap.view (r : Mmap Cow) : Mmap List :=
  { pid := r.pid, tid := r.tid, addr := r.addr, len := r.len, pgoff := r.pgoff, filename := r.filename.data }
def Comm.view (r : Comm Cow) : Comm List := { pid := r.pid, tid := r.tid, comm := r.comm.data }
def Mmap2.view (r : Mmap2 Cow) : Mmap2 List :=
  { pid := r.pid, tid := r.tid, addr := r.addr, len := r.len, pgoff := r.pgoff, prot := r.prot, flags := r.flags
    filename := r.filename.data, detail := r.detail }
def Namespaces.view (r : Namespaces Cow) : Namespaces List :=
  { pid := r.pid, tid := r.tid, namespaces := r.namespaces.data }
def KSymbol.view (r : KSymbol Cow) : KSymbol List :=
  { addr := r.addr, len := r.len, ksymType := r.ksymType, flags := r.flags, name := r.name.data }
def CGroup.view (r : CGroup Cow) : CGroup List := { id := r.id, path := r.path.data }
def TextPoke.view (r : TextPoke Cow) : TextPoke List :=
  { addr := r.addr, oldBytes := r.oldBytes.data, newBytes := r.newBytes.data }
def ReadGroup.view (r : ReadGroup Cow) : ReadGroup List :=
  { readFormat := r.readFormat, timeEnabled := r.timeEnabled, timeRunning := r.timeRunning, data := r.data.data }
def Registers.view (r : Registers Cow) : Registers List := { abi := r.abi, mask := r.mask, regs := r.regs.data }
def Sample.view (s : Sample Cow) : Sample List :=
  { ip := s.ip, pid := s.pid, tid := s.tid, time := s.time, addr := s.addr, id := s.id, streamId := s.streamId
    cpu := s.cpu, period := s.period, values := s.values.map ReadGroup.view, callchain := s.callchain.map Cow.data
    raw := s.raw.map Cow.data, lbrHwIndex := s.lbrHwIndex, lbr := s.lbr.map Cow.data
    regsUser := s.regsUser.map Registers.view, stackUser := s.stackUser.map Cow.data, weight := s.weight
    dataSrc := s.dataSrc, transaction := s.transaction, regsIntr := s.regsIntr.map Registers.view
    physAddr := s.physAddr, aux := s.aux.map Cow.data, cgroup := s.cgroup, dataPageSize := s.dataPageSize
    codePageSize := s.codePageSize }

def Record.view : Record Cow → Record List
  | .mmap r => .mmap r.view
  | .lost r => .lost r
  | .comm r => .comm r.view
  | .exit r => .exit r
  | .throttle r => .throttle r
  | .unthrottle r => .unthrottle r
  | .fork r => .fork r
  | .read r => .read r
  | .sample r => .sample r.view
  | .mmap2 r => .mmap2 r.view
  | .aux r => .aux r
  | .itraceStart r => .itraceStart r
  | .lostSamples r => .lostSamples r
  | .switch => .switch
  | .switchCpuWide r => .switchCpuWide r
  | .namespaces r => .namespaces r.view
  | .ksymbol r => .ksymbol r.view
  | .bpfEvent r => .bpfEvent r
  | .cgroup r => .cgroup r.view
  | .textPoke r => .textPoke r.view
  | .auxOutputHwId r => .auxOutputHwId r
  | .unknown ty data => .unknown ty data.data

end Perf
