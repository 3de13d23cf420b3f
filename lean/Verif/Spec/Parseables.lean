import Verif.Spec.Format
import Verif.Spec.Utf8
import Verif.Model.Parsers
/-!
# The parseables of a 1.26 sample, in literal offsets

`hb` is the header (480 bytes), `rec` the record (80), `sst` the system statistics (88368), `t` one task (616).
The offsets are those of the C structures of atop 1.26.
-/

namespace Atop.Spec

/-- One printed row. -/
abbrev PRow := List (PyStr × JVal)

/-- `ss` are the texts encoded (in valid UTF-8) by `bs`. -/
def Decoded (bs : List Bytes) (ss : List PyStr) : Prop := (∀ s ∈ ss, ∀ c ∈ s, scalar c) ∧ ss.map encodeText = bs

/-- The generator produces the `n` rows `mk 0`, `mk 1`, ...: row `i` shows the texts stored in `texts i`.  It ends
early, with `UnicodeDecodeError`, exactly at the first row with a text that is not valid UTF-8. -/
structure Yields (out : Rows) (n : Nat) (texts : Nat → List Bytes) (mk : Nat → List PyStr → PRow) : Prop where
  rows : ∀ (i : Nat) row, out.rows[i]? = some row → ∃ ss, Decoded (texts i) ss ∧ row = mk i ss
  ended : out.err = none → out.rows.length = n
  failed : ∀ e, out.err = some e → e = .unicodeDecodeError ∧ out.rows.length < n ∧
    ¬ ∃ ss, Decoded (texts out.rows.length) ss

/-- Text `k` of a row. -/
def txt (ss : List PyStr) (k : Nat) : JVal := .str (ss.getD k [])

/-- The text field of `w` bytes at offset `o`: the bytes before its NUL. -/
def field (b : Bytes) (o w : Nat) : Bytes := beforeNul ((b.drop o).take w)

/-- Of the `cap` entries of `w` bytes starting at `base`, the first `n` have a name (a non-zero first byte), and they
are all or entry `n` has none. -/
def Leading (b : Bytes) (base w cap n : Nat) : Prop :=
  n ≤ cap ∧ (∀ i, i < n → u8 b (base + i * w) ≠ 0) ∧ (n = cap ∨ u8 b (base + n * w) = 0)

/-- Time and interval of the record. -/
def when (rec : Bytes) : PRow := [(py!"timestamp", .int (i64 rec 0)), (py!"interval", .int (u32 rec 24))]

/-- 'cpu': one core. -/
def cpuSpec (hb rec sst : Bytes) (i : Nat) : PRow := when rec ++ [
  (py!"ticks", .int (u16 hb 14)),
  (py!"proc", .int i),
  (py!"system", .int (i64 sst (192 + 112 * i + 8))),
  (py!"user", .int (i64 sst (192 + 112 * i + 16))),
  (py!"niced", .int (i64 sst (192 + 112 * i + 24))),
  (py!"idle", .int (i64 sst (192 + 112 * i + 32))),
  (py!"wait", .int (i64 sst (192 + 112 * i + 40))),
  (py!"irq", .int (i64 sst (192 + 112 * i + 48))),
  (py!"softirq", .int (i64 sst (192 + 112 * i + 56))),
  (py!"steal", .int (i64 sst (192 + 112 * i + 64))),
  (py!"guest", .int (i64 sst (192 + 112 * i + 72)))]

def cplSpec (rec sst : Bytes) : PRow := when rec ++ [
  (py!"procs", .int (i64 sst 0)),
  (py!"load_1", .float (u32 sst 32)),
  (py!"load_5", .float (u32 sst 36)),
  (py!"load_15", .float (u32 sst 40)),
  (py!"context_switches", .int (i64 sst 16)),
  (py!"interrupts", .int (i64 sst 8))]

def cpuTotalSpec (hb rec sst : Bytes) : PRow := when rec ++ [
  (py!"ticks", .int (u16 hb 14)),
  (py!"procs", .int (i64 sst 0)),
  (py!"system", .int (i64 sst 88)),
  (py!"user", .int (i64 sst 96)),
  (py!"niced", .int (i64 sst 104)),
  (py!"idle", .int (i64 sst 112)),
  (py!"wait", .int (i64 sst 120)),
  (py!"irq", .int (i64 sst 128)),
  (py!"softirq", .int (i64 sst 136)),
  (py!"steal", .int (i64 sst 144)),
  (py!"guest", .int (i64 sst 152))]

/-- DSK, LVM, MDD: the disk stored at offset `o`. -/
def diskSpec (rec sst : Bytes) (o : Nat) (ss : List PyStr) : PRow := when rec ++ [
  (py!"name", txt ss 0),
  (py!"io_ms", .int (i64 sst (o + 64))),
  (py!"reads", .int (i64 sst (o + 32))),
  (py!"read_sectors", .int (i64 sst (o + 40))),
  (py!"writes", .int (i64 sst (o + 48))),
  (py!"write_sectors", .int (i64 sst (o + 56)))]

def memSpec (hb rec sst : Bytes) : PRow := when rec ++ [
  (py!"page_size", .int (u32 hb 436)),
  (py!"phys_mem", .int (i64 sst 7360)),
  (py!"free_mem", .int (i64 sst 7368)),
  (py!"page_cache", .int (i64 sst 7392)),
  (py!"buffer_cache", .int (i64 sst 7376)),
  (py!"slab", .int (i64 sst 7384)),
  (py!"dirty_pages", .int (i64 sst 7400))]

/-- NETL: the interface stored at offset `o`. -/
def netlSpec (rec sst : Bytes) (o : Nat) (ss : List PyStr) : PRow := when rec ++ [
  (py!"name", txt ss 0),
  (py!"pkt_received", .int (i64 sst (o + 24))),
  (py!"byte_received", .int (i64 sst (o + 16))),
  (py!"pkt_transmitted", .int (i64 sst (o + 120))),
  (py!"bytes_transmitted", .int (i64 sst (o + 112))),
  (py!"speed", .int (i64 sst (o + 208))),
  (py!"duplex", .int (u8 sst (o + 216)))]

/-- NETU: sums of the v4 and the v6 counters. -/
def netuSpec (rec sst : Bytes) : PRow := when rec ++ [
  (py!"name", .str py!"upper"),
  (py!"tcp_pkt_received", .int (i64 sst 8400)),
  (py!"tcp_pkt_transmitted", .int (i64 sst 8408)),
  (py!"udp_pkt_received", .int (i64 sst 7864 + i64 sst 8296)),
  (py!"udp_pkt_transmitted", .int (i64 sst 7888 + i64 sst 8320)),
  (py!"ip_pkt_received", .int (i64 sst 7520 + i64 sst 7896)),
  (py!"ip_pkt_transmitted", .int (i64 sst 7576 + i64 sst 7976)),
  (py!"ip_pkt_delivered", .int (i64 sst 7568 + i64 sst 7960)),
  (py!"ip_pkt_forwarded", .int (i64 sst 7544 + i64 sst 7968))]

def pagSpec (hb rec sst : Bytes) : PRow := when rec ++ [
  (py!"page_size", .int (u32 hb 436)),
  (py!"page_scans", .int (i64 sst 7424)),
  (py!"alloc_stalls", .int (i64 sst 7432)),
  (py!"swapins", .int (i64 sst 7448)),
  (py!"swapouts", .int (i64 sst 7440))]

def swpSpec (hb rec sst : Bytes) : PRow := when rec ++ [
  (py!"page_size", .int (u32 hb 436)),
  (py!"swap", .int (i64 sst 7408)),
  (py!"free_swap", .int (i64 sst 7416)),
  (py!"committed_space", .int (i64 sst 7464)),
  (py!"committed_limit", .int (i64 sst 7456))]

/-- The texts naming a task: its name and its one-character state. -/
def taskTexts (t : Bytes) : List Bytes := [field t 44 16, (t.drop 60).take 1]

/-- Start of every process row. -/
def taskSpec (rec t : Bytes) (ss : List PyStr) : PRow :=
  when rec ++ [(py!"pid", .int (i32 t 0)), (py!"name", txt ss 0), (py!"state", txt ss 1)]

/-- 'y' when bit `k` of the 32-bit word of support flags in the header is set. -/
def flagSpec (hb : Bytes) (k : Nat) : JVal := .str (if u32 hb 440 / 2 ^ k % 2 = 1 then py!"y" else py!"n")

def prcSpec (hb rec t : Bytes) (ss : List PyStr) : PRow := taskSpec rec t ss ++ [
  (py!"ticks", .int (u16 hb 14)),
  (py!"user_consumption", .int (i64 t 256)),
  (py!"system_consumption", .int (i64 t 264)),
  (py!"nice", .int (i32 t 272)),
  (py!"priority", .int (i32 t 276)),
  (py!"priority_realtime", .int (i32 t 280)),
  (py!"policy", .int (i32 t 284)),
  (py!"cpu", .int (i32 t 288)),
  (py!"sleep", .int (i32 t 292))]

def prdSpec (hb rec t : Bytes) (ss : List PyStr) : PRow := taskSpec rec t ss ++ [
  (py!"kernel_patch", flagSpec hb 1),
  (py!"standard_io", flagSpec hb 2),
  (py!"reads", .int (i64 t 344)),
  (py!"read_sectors", .int (i64 t 352)),
  (py!"writes", .int (i64 t 360)),
  (py!"written_sectors", .int (i64 t 368)),
  (py!"cancelled_sector_writes", .int (i64 t 376))]

def prgSpec (rec t : Bytes) (ss : List PyStr) : PRow := taskSpec rec t ss ++ [
  (py!"real_uid", .int (i32 t 8)),
  (py!"real_gid", .int (i32 t 24)),
  (py!"tgid", .int (i32 t 0)),
  (py!"threads", .int (i32 t 40)),
  (py!"exit_code", .int (i32 t 64)),
  (py!"start_time", .int (i64 t 72)),
  (py!"cmd", txt ss 2),
  (py!"ppid", .int (i32 t 4)),
  (py!"running_threads", .int (i32 t 248)),
  (py!"sleeping_threads", .int (i32 t 240)),
  (py!"dead_threads", .int (i32 t 244)),
  (py!"effective_uid", .int (i32 t 12)),
  (py!"effective_gid", .int (i32 t 28)),
  (py!"saved_uid", .int (i32 t 16)),
  (py!"saved_gid", .int (i32 t 32)),
  (py!"filesystem_uid", .int (i32 t 20)),
  (py!"filesystem_gid", .int (i32 t 36)),
  (py!"elapsed_time", .int (i64 t 80))]

def prmSpec (hb rec t : Bytes) (ss : List PyStr) : PRow := taskSpec rec t ss ++ [
  (py!"page", .int (u32 hb 436)),
  (py!"vsize", .int (1024 * i64 t 440)),
  (py!"rsize", .int (1024 * i64 t 448)),
  (py!"ssize", .int (1024 * i64 t 432)),
  (py!"vgrowth", .int (1024 * i64 t 456)),
  (py!"rgrowth", .int (1024 * i64 t 464)),
  (py!"minor_faults", .int (i64 t 416)),
  (py!"major_faults", .int (i64 t 424))]

def prnSpec (hb rec t : Bytes) (ss : List PyStr) : PRow := taskSpec rec t ss ++ [
  (py!"kernel_patch", flagSpec hb 1),
  (py!"tcp_transmitted", .int (i64 t 504)),
  (py!"tcp_transmitted_size", .int (i64 t 512)),
  (py!"tcp_received", .int (i64 t 520)),
  (py!"tcp_received_size", .int (i64 t 528)),
  (py!"udp_transmitted", .int (i64 t 536)),
  (py!"udp_transmitted_size", .int (i64 t 544)),
  (py!"udp_received", .int (i64 t 552)),
  (py!"udp_received_size", .int (i64 t 560)),
  (py!"raw_transmitted", .int (i64 t 568)),
  (py!"raw_received", .int (i64 t 576))]

/-- The `n` rows parseable `p` has to produce, and the texts each of them shows. -/
inductive Work (sst : Bytes) (ts : List Bytes) : PyStr → Nat → (Nat → List Bytes) → Prop
  | cpu : Work sst ts py!"cpu" (min (i64 sst 0).toNat 64) (fun _ => [])
  | single {p} : p ∈ [py!"CPL", py!"CPU", py!"MEM", py!"NETU", py!"PAG", py!"SWP"] → Work sst ts p 1 (fun _ => [])
  | dsk {n} : Leading sst 16656 112 256 n → Work sst ts py!"DSK" n (fun i => [field sst (16656 + i * 112) 32])
  | mdd {n} : Leading sst 45328 112 128 n → Work sst ts py!"MDD" n (fun i => [field sst (45328 + i * 112) 32])
  | lvm {n} : Leading sst 59664 112 256 n → Work sst ts py!"LVM" n (fun i => [field sst (59664 + i * 112) 32])
  | netl {n} : Leading sst 8448 256 32 n → Work sst ts py!"NETL" n (fun i => [field sst (8448 + i * 256) 16])
  | task {p} : p ∈ [py!"PRC", py!"PRD", py!"PRM", py!"PRN"] → Work sst ts p ts.length (fun i => taskTexts (ts.getD i []))
  | prg : Work sst ts py!"PRG" ts.length (fun i => taskTexts (ts.getD i []) ++ [field (ts.getD i []) 88 151])

end Atop.Spec
