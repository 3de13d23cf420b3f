import Verif.Model.Utils
/-!
# `atoparser/parsers/atop_1_26.py`: the "parseable" generators
-/

namespace Atop

/-- A generator of dictionaries run to completion: the rows yielded, and the exception that ended
it, if any. -/
structure Rows where
  rows : List (List (PyStr × JVal))
  err : Option Exc

/-- A `for` loop building one row per item: rows are yielded until a row raises. -/
def Rows.ofList : List (Except Exc (List (PyStr × JVal))) → Rows
  | [] => ⟨[], none⟩
  | .ok r :: rest => let x := Rows.ofList rest; ⟨r :: x.rows, x.err⟩
  | .error e :: _ => ⟨[], some e⟩

/-- A generator body whose preamble may raise before any row. -/
def Rows.guard (x : Except Exc (List (Except Exc (List (PyStr × JVal))))) : Rows :=
  match x with
  | .ok l => .ofList l
  | .error e => ⟨[], some e⟩

/-- `o.a.b.c` -/
def PyObj.path (o : PyObj) : List PyStr → Except Exc PyObj
  | [] => .ok o
  | n :: ns => do (← o.attr n).path ns

/-- A Python object stored as a dictionary value. -/
def PyObj.toJ : PyObj → JVal
  | .int i => .int i
  | .float b => .float b
  | .bytes b => .bytes b
  | .struct .. => .other
  | .array .. => .other

/-- Plain attribute read stored in a dictionary. -/
def get (o : PyObj) (p : List PyStr) : Except Exc JVal := do return (← o.path p).toJ

/-- Attribute read used as an integer. -/
def getInt (o : PyObj) (p : List PyStr) : Except Exc Int := do (← o.path p).asInt

/-- Attribute read used as `bytes` (`.decode()`, truth value, `int.from_bytes`). -/
def getBytes (o : PyObj) (p : List PyStr) : Except Exc Bytes := do
  match ← o.path p with
  | .bytes b => return b
  | _ => .error .attributeError

/-- `o.a.b.decode()` -/
def getStr (o : PyObj) (p : List PyStr) : Except Exc JVal := do
  return .str (← decodeStrict (← getBytes o p))

/-- Iterating a ctypes array attribute. -/
def getItems (o : PyObj) (p : List PyStr) : Except Exc (List PyObj) := do
  match ← o.path p with
  | .array e n buf => return (chunks buf e.size n).map (pyItem e)
  | _ => .error .typeError

/-- `int.from_bytes(b, byteorder="big")` -/
def beNat (b : Bytes) : Nat := b.foldl (fun acc x => acc * 256 + x.toNat) 0

/-- `i & m` for a mask `m ≥ 0`: only the low bits of `i` matter, and `%` with a positive modulus gives their two's
complement value for negative `i` too, as in Python. -/
def pyAnd (i : Int) (m : Nat) : Nat := (i % (2 ^ (m.log2 + 1) : Nat)).toNat &&& m

/-- Evaluate a dictionary display `{k: e, ...}`: values left to right, first exception wins. -/
def row : List (PyStr × Except Exc JVal) → Except Exc (List (PyStr × JVal))
  | [] => .ok []
  | (k, e) :: r => do
    let v ← e
    return (k, v) :: (← row r)

/-- The arguments every parser takes. -/
structure PArgs where
  header : PyObj
  record : PyObj
  sstat : PyObj
  tstats : List PyObj

/-- The first two entries of every row. -/
def stamp (a : PArgs) : List (PyStr × Except Exc JVal) :=
  [(py!"timestamp", get a.record [py!"curtime"]), (py!"interval", get a.record [py!"interval"])]

/-- The loop test of parse_cpu, `index >= sstat.cpu.nrcpu`, then the row; `none` is `break`. -/
def cpuLoop (a : PArgs) : List PyObj → Nat → List (Except Exc (List (PyStr × JVal)))
  | [], _ => []
  | cpu :: rest, index =>
    match getInt a.sstat [py!"cpu", py!"nrcpu"] with
    | .error e => [.error e]
    | .ok nrcpu =>
      if (index : Int) ≥ nrcpu then []
      else
        row (stamp a ++ [
          (py!"ticks", get a.header [py!"hertz"]),
          (py!"proc", .ok (.int index)),
          (py!"system", get cpu [py!"stime"]),
          (py!"user", get cpu [py!"utime"]),
          (py!"niced", get cpu [py!"ntime"]),
          (py!"idle", get cpu [py!"itime"]),
          (py!"wait", get cpu [py!"wtime"]),
          (py!"irq", get cpu [py!"Itime"]),
          (py!"softirq", get cpu [py!"Stime"]),
          (py!"steal", get cpu [py!"steal"]),
          (py!"guest", get cpu [py!"guest"])]) :: cpuLoop a rest (index + 1)

/-- atoparser/parsers/atop_1_26.py:11-37 -/
def parse_cpu (a : PArgs) : Rows := .guard do
  return cpuLoop a (← getItems a.sstat [py!"cpu", py!"cpu"]) 0

/-- atoparser/parsers/atop_1_26.py:40-57 -/
def parse_CPL (a : PArgs) : Rows := .ofList [row (stamp a ++ [
  (py!"procs", get a.sstat [py!"cpu", py!"nrcpu"]),
  (py!"load_1", get a.sstat [py!"cpu", py!"lavg1"]),
  (py!"load_5", get a.sstat [py!"cpu", py!"lavg5"]),
  (py!"load_15", get a.sstat [py!"cpu", py!"lavg15"]),
  (py!"context_switches", get a.sstat [py!"cpu", py!"csw"]),
  (py!"interrupts", get a.sstat [py!"cpu", py!"devint"])])]

/-- atoparser/parsers/atop_1_26.py:60-82 -/
def parse_CPU (a : PArgs) : Rows := .ofList [row (stamp a ++ [
  (py!"ticks", get a.header [py!"hertz"]),
  (py!"procs", get a.sstat [py!"cpu", py!"nrcpu"]),
  (py!"system", get a.sstat [py!"cpu", py!"all", py!"stime"]),
  (py!"user", get a.sstat [py!"cpu", py!"all", py!"utime"]),
  (py!"niced", get a.sstat [py!"cpu", py!"all", py!"ntime"]),
  (py!"idle", get a.sstat [py!"cpu", py!"all", py!"itime"]),
  (py!"wait", get a.sstat [py!"cpu", py!"all", py!"wtime"]),
  (py!"irq", get a.sstat [py!"cpu", py!"all", py!"Itime"]),
  (py!"softirq", get a.sstat [py!"cpu", py!"all", py!"Stime"]),
  (py!"steal", get a.sstat [py!"cpu", py!"all", py!"steal"]),
  (py!"guest", get a.sstat [py!"cpu", py!"all", py!"guest"])])]

/-- The shared loop shape of parse_DSK/LVM/MDD/NETL: stop at the first empty name. -/
def untilEmptyName (f : PyObj → Except Exc (List (PyStr × JVal))) :
    List PyObj → List (Except Exc (List (PyStr × JVal)))
  | [] => []
  | x :: rest =>
    match getBytes x [py!"name"] with
    | .error e => [.error e]
    | .ok name => if name.isEmpty then [] else f x :: untilEmptyName f rest

/-- The row of parse_DSK/LVM/MDD (identical keys and attributes;
atoparser/parsers/atop_1_26.py:96-105, 120-129, 144-153). -/
def diskRow (a : PArgs) (d : PyObj) : Except Exc (List (PyStr × JVal)) := row (stamp a ++ [
  (py!"name", getStr d [py!"name"]),
  (py!"io_ms", get d [py!"io_ms"]),
  (py!"reads", get d [py!"nread"]),
  (py!"read_sectors", get d [py!"nrsect"]),
  (py!"writes", get d [py!"nwrite"]),
  (py!"write_sectors", get d [py!"nwsect"])])

/-- atoparser/parsers/atop_1_26.py:85-106 -/
def parse_DSK (a : PArgs) : Rows := .guard do
  return untilEmptyName (diskRow a) (← getItems a.sstat [py!"dsk", py!"dsk"])

/-- atoparser/parsers/atop_1_26.py:109-130 -/
def parse_LVM (a : PArgs) : Rows := .guard do
  return untilEmptyName (diskRow a) (← getItems a.sstat [py!"dsk", py!"lvm"])

/-- atoparser/parsers/atop_1_26.py:133-154 -/
def parse_MDD (a : PArgs) : Rows := .guard do
  return untilEmptyName (diskRow a) (← getItems a.sstat [py!"dsk", py!"mdd"])

/-- atoparser/parsers/atop_1_26.py:157-175 -/
def parse_MEM (a : PArgs) : Rows := .ofList [row (stamp a ++ [
  (py!"page_size", get a.header [py!"pagesize"]),
  (py!"phys_mem", get a.sstat [py!"mem", py!"physmem"]),
  (py!"free_mem", get a.sstat [py!"mem", py!"freemem"]),
  (py!"page_cache", get a.sstat [py!"mem", py!"cachemem"]),
  (py!"buffer_cache", get a.sstat [py!"mem", py!"buffermem"]),
  (py!"slab", get a.sstat [py!"mem", py!"slabmem"]),
  (py!"dirty_pages", get a.sstat [py!"mem", py!"cachedrt"])])]

/-- atoparser/parsers/atop_1_26.py:189-199 -/
def netlRow (a : PArgs) (i : PyObj) : Except Exc (List (PyStr × JVal)) := row (stamp a ++ [
  (py!"name", getStr i [py!"name"]),
  (py!"pkt_received", get i [py!"rpack"]),
  (py!"byte_received", get i [py!"rbyte"]),
  (py!"pkt_transmitted", get i [py!"spack"]),
  (py!"bytes_transmitted", get i [py!"sbyte"]),
  (py!"speed", get i [py!"speed"]),
  (py!"duplex", do return .int (beNat (← getBytes i [py!"duplex"])))])

/-- atoparser/parsers/atop_1_26.py:178-200 -/
def parse_NETL (a : PArgs) : Rows := .guard do
  return untilEmptyName (netlRow a) (← getItems a.sstat [py!"intf", py!"intf"])

/-- `x + y` of two attributes of `sstat`. -/
def addAttr (o : PyObj) (p q : List PyStr) : Except Exc JVal := do
  return .int ((← getInt o p) + (← getInt o q))

/-- atoparser/parsers/atop_1_26.py:203-223 -/
def parse_NETU (a : PArgs) : Rows := .ofList [row (stamp a ++ [
  (py!"name", .ok (.str py!"upper")),
  (py!"tcp_pkt_received", get a.sstat [py!"net", py!"tcp", py!"InSegs"]),
  (py!"tcp_pkt_transmitted", get a.sstat [py!"net", py!"tcp", py!"OutSegs"]),
  (py!"udp_pkt_received", addAttr a.sstat [py!"net", py!"udpv4", py!"InDatagrams"] [py!"net", py!"udpv6", py!"Udp6InDatagrams"]),
  (py!"udp_pkt_transmitted", addAttr a.sstat [py!"net", py!"udpv4", py!"OutDatagrams"] [py!"net", py!"udpv6", py!"Udp6OutDatagrams"]),
  (py!"ip_pkt_received", addAttr a.sstat [py!"net", py!"ipv4", py!"InReceives"] [py!"net", py!"ipv6", py!"Ip6InReceives"]),
  (py!"ip_pkt_transmitted", addAttr a.sstat [py!"net", py!"ipv4", py!"OutRequests"] [py!"net", py!"ipv6", py!"Ip6OutRequests"]),
  (py!"ip_pkt_delivered", addAttr a.sstat [py!"net", py!"ipv4", py!"InDelivers"] [py!"net", py!"ipv6", py!"Ip6InDelivers"]),
  (py!"ip_pkt_forwarded", addAttr a.sstat [py!"net", py!"ipv4", py!"ForwDatagrams"] [py!"net", py!"ipv6", py!"Ip6OutForwDatagrams"])])]

/-- atoparser/parsers/atop_1_26.py:226-242 -/
def parse_PAG (a : PArgs) : Rows := .ofList [row (stamp a ++ [
  (py!"page_size", get a.header [py!"pagesize"]),
  (py!"page_scans", get a.sstat [py!"mem", py!"pgscans"]),
  (py!"alloc_stalls", get a.sstat [py!"mem", py!"allocstall"]),
  (py!"swapins", get a.sstat [py!"mem", py!"swins"]),
  (py!"swapouts", get a.sstat [py!"mem", py!"swouts"])])]

/-- The pid/name/state entries of the process parsers. -/
def procId (t : PyObj) : List (PyStr × Except Exc JVal) := [
  (py!"pid", get t [py!"gen", py!"pid"]),
  (py!"name", getStr t [py!"gen", py!"name"]),
  (py!"state", getStr t [py!"gen", py!"state"])]

/-- atoparser/parsers/atop_1_26.py:245-269 -/
def parse_PRC (a : PArgs) : Rows := .ofList (a.tstats.map fun t => row (stamp a ++ procId t ++ [
  (py!"ticks", get a.header [py!"hertz"]),
  (py!"user_consumption", get t [py!"cpu", py!"utime"]),
  (py!"system_consumption", get t [py!"cpu", py!"stime"]),
  (py!"nice", get t [py!"cpu", py!"nice"]),
  (py!"priority", get t [py!"cpu", py!"prio"]),
  (py!"priority_realtime", get t [py!"cpu", py!"rtprio"]),
  (py!"policy", get t [py!"cpu", py!"policy"]),
  (py!"cpu", get t [py!"cpu", py!"curcpu"]),
  (py!"sleep", get t [py!"cpu", py!"sleepavg"])]))

/-- `"y" if header.supportflags & FLAG else "n"` -/
def flagYN (a : PArgs) (flag : Nat) : Except Exc JVal := do
  return .str (if pyAnd (← getInt a.header [py!"supportflags"]) flag ≠ 0 then py!"y" else py!"n")

/-- atoparser/parsers/atop_1_26.py:272-294 -/
def parse_PRD (a : PArgs) : Rows := .ofList (a.tstats.map fun t => row (stamp a ++ procId t ++ [
  (py!"kernel_patch", flagYN a V1_26.PATCHSTAT),
  (py!"standard_io", flagYN a V1_26.IOSTAT),
  (py!"reads", get t [py!"dsk", py!"rio"]),
  (py!"read_sectors", get t [py!"dsk", py!"rsz"]),
  (py!"writes", get t [py!"dsk", py!"wio"]),
  (py!"written_sectors", get t [py!"dsk", py!"wsz"]),
  (py!"cancelled_sector_writes", get t [py!"dsk", py!"cwsz"])]))

/-- atoparser/parsers/atop_1_26.py:297-330 -/
def parse_PRG (a : PArgs) : Rows := .ofList (a.tstats.map fun t => row (stamp a ++ procId t ++ [
  (py!"real_uid", get t [py!"gen", py!"ruid"]),
  (py!"real_gid", get t [py!"gen", py!"rgid"]),
  (py!"tgid", get t [py!"gen", py!"pid"]),
  (py!"threads", get t [py!"gen", py!"nthr"]),
  (py!"exit_code", get t [py!"gen", py!"excode"]),
  (py!"start_time", get t [py!"gen", py!"btime"]),
  (py!"cmd", getStr t [py!"gen", py!"cmdline"]),
  (py!"ppid", get t [py!"gen", py!"ppid"]),
  (py!"running_threads", get t [py!"gen", py!"nthrrun"]),
  (py!"sleeping_threads", get t [py!"gen", py!"nthrslpi"]),
  (py!"dead_threads", get t [py!"gen", py!"nthrslpu"]),
  (py!"effective_uid", get t [py!"gen", py!"euid"]),
  (py!"effective_gid", get t [py!"gen", py!"egid"]),
  (py!"saved_uid", get t [py!"gen", py!"suid"]),
  (py!"saved_gid", get t [py!"gen", py!"sgid"]),
  (py!"filesystem_uid", get t [py!"gen", py!"fsuid"]),
  (py!"filesystem_gid", get t [py!"gen", py!"fsgid"]),
  (py!"elapsed_time", get t [py!"gen", py!"elaps"])]))

/-- `attribute * 1024` -/
def getKiB (o : PyObj) (p : List PyStr) : Except Exc JVal := do return .int ((← getInt o p) * 1024)

/-- atoparser/parsers/atop_1_26.py:333-356 -/
def parse_PRM (a : PArgs) : Rows := .ofList (a.tstats.map fun t => row (stamp a ++ procId t ++ [
  (py!"page", get a.header [py!"pagesize"]),
  (py!"vsize", getKiB t [py!"mem", py!"vmem"]),
  (py!"rsize", getKiB t [py!"mem", py!"rmem"]),
  (py!"ssize", getKiB t [py!"mem", py!"shtext"]),
  (py!"vgrowth", getKiB t [py!"mem", py!"vgrow"]),
  (py!"rgrowth", getKiB t [py!"mem", py!"rgrow"]),
  (py!"minor_faults", get t [py!"mem", py!"minflt"]),
  (py!"major_faults", get t [py!"mem", py!"majflt"])]))

/-- atoparser/parsers/atop_1_26.py:359-385 -/
def parse_PRN (a : PArgs) : Rows := .ofList (a.tstats.map fun t => row (stamp a ++ procId t ++ [
  (py!"kernel_patch", flagYN a V1_26.PATCHSTAT),
  (py!"tcp_transmitted", get t [py!"net", py!"tcpsnd"]),
  (py!"tcp_transmitted_size", get t [py!"net", py!"tcpssz"]),
  (py!"tcp_received", get t [py!"net", py!"tcprcv"]),
  (py!"tcp_received_size", get t [py!"net", py!"tcprsz"]),
  (py!"udp_transmitted", get t [py!"net", py!"udpsnd"]),
  (py!"udp_transmitted_size", get t [py!"net", py!"udpssz"]),
  (py!"udp_received", get t [py!"net", py!"udprcv"]),
  (py!"udp_received_size", get t [py!"net", py!"udprsz"]),
  (py!"raw_transmitted", get t [py!"net", py!"rawsnd"]),
  (py!"raw_received", get t [py!"net", py!"rawrcv"])]))

/-- atoparser/parsers/atop_1_26.py:388-404 -/
def parse_SWP (a : PArgs) : Rows := .ofList [row (stamp a ++ [
  (py!"page_size", get a.header [py!"pagesize"]),
  (py!"swap", get a.sstat [py!"mem", py!"totswap"]),
  (py!"free_swap", get a.sstat [py!"mem", py!"freeswap"]),
  (py!"committed_space", get a.sstat [py!"mem", py!"committed"]),
  (py!"committed_limit", get a.sstat [py!"mem", py!"commitlim"])])]

end Atop
