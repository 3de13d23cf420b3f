import Verif.Props.WitnessMore
import Verif.Props.ByHand
import Verif.Props.OneReader
import Verif.Props.ShortReads
import Verif.Props.SourceUtils
import Verif.Props.SourceDict
import Verif.Props.SourceArgs
import Verif.Props.SourceResult
import Verif.Props.ObjectsUnchecked
import Verif.Props.Readme
import Verif.Props.Minimal
/-!
# Concrete cases, theorem by theorem: objects in memory and the source text
-/

set_option maxRecDepth 20000

namespace Atop
open Spec

/-- The state after `get_header` on the log of a version: header object `j` shows `h`, the file is past the header. -/
structure ToyWorld (r : Row) (w : World) (j : Nat) (h : Header) : Prop where
  wf : w.WF
  header : w.header j = some h
  read : getHeader true (toyFile r) = (.ok h, toyOpen r)
  file : w.file = toyOpen r
  block : 0 < w.heap.length

/-- Every version has one. -/
theorem toy_world (r : Row) (hr : r ∈ table) : ∃ w j h, ToyWorld r w j h := by
  obtain ⟨h, c, -, -, -, hg, -, -, -⟩ := toy_open r hr
  obtain ⟨g1, g2, -, g4⟩ := C65_get_header { file := toyFile r } nofun true
  dsimp only at g1 g2 g4
  rw [hg] at g1 g4
  generalize Obj.getHeader true { file := toyFile r } = R at g1 g2 g4
  obtain ⟨e | j, w⟩ := R
  · exact g4.elim
  obtain ⟨k1, o, k2, k3⟩ := g4
  dsimp only at g1 g2 k1 k2 k3
  refine ⟨w, j, h, g2, k1, hg, g1, ?_⟩
  have := g2 o (List.mem_of_getElem? k2)
  omega

namespace ToyWorld
variable {r : Row} {w : World} {j : Nat} {h : Header}

theorem cached (T : ToyWorld r w j h) : h.cache.isSome := by
  obtain ⟨-, -, A, -, enough⟩ := getHeader_ok T.read
  obtain ⟨c, -, hx⟩ := C08_header_result (toyFile r) enough A
  have := T.read.symm.trans hx
  rw [← Except.ok.inj (Prod.mk.inj this.symm).1]
  rfl
theorem known (T : ToyWorld r w j h) : h.cls ∈ versions := (C11_dispatch (toyFile r) (.inl rfl) true (by rw [T.read])).2.1
theorem held (T : ToyWorld r w j h) : Calls.Held w [(true, some j, 5), (false, some j, 5)] := by
  intro p hp i hi
  have : i = j := by
    rcases List.mem_cons.mp hp with rfl | hp
    · cases hi; rfl
    · rw [List.mem_singleton.mp hp] at hi; cases hi; rfl
  subst this
  exact ⟨h, _, _, T.header, T.read⟩
theorem returned (T : ToyWorld r w j h) : Calls.Returned w [(true, some j, 5), (false, some j, 5)] :=
  fun p hp i hi => by
    obtain ⟨h, s0, s1, a, b⟩ := T.held p hp i hi
    exact ⟨h, true, s0, s1, a, b⟩
theorem lib (T : ToyWorld r w j h) : Src.LibFile w.file := by rw [T.file]; intro e he; cases he
end ToyWorld

variable {r : Row} {w : World} {j : Nat} {h : Header}

/-- **C65** `C65_step`, `C65_separate`, `C65_untouched` and `C65_unchecked_separate`, `C65_unchecked_untouched`. -/
example (T : ToyWorld r w j h) (v : Nat × Nat) := C65_step toyZ true T.wf T.header T.cached v 5 5
example (T : ToyWorld r w j h) (ops : List Obj.Op) := C65_separate toyZ T.wf T.held ops
example (T : ToyWorld r w j h) := C65_untouched toyZ T.wf T.held [.next 0, .next 1, .write 7 0 [1, 2]] T.block (by simp)
example (T : ToyWorld r w j h) (ops : List Obj.Op) := C65_unchecked_separate toyZ T.wf T.returned ops
example (T : ToyWorld r w j h) := C65_unchecked_untouched toyZ T.wf T.returned [.next 0, .next 1, .write 7 0 [1, 2]] T.block (by simp)

/-- What the examples of growing files show of the log: first one sample and the record of the second, then two samples, then all. -/
def toyGrowing (r : Row) (t : Nat) : Nat := if t ≤ 3 then 480 + ((toySample r).bytes r).length + r.record else
  if t ≤ 6 then 480 + ((toySample r).bytes r).length + ((toySample r).bytes r).length else 480 + (body r (toyLog r)).length

theorem toyGrowing_ok (r : Row) (hr : r ∈ table) : (∀ a b, a ≤ b → toyGrowing r a ≤ toyGrowing r b) ∧ 480 ≤ toyGrowing r 0 ∧
    ∀ t, RecordsWhole r (toyLog r) (toyGrowing r t) := by
  have h1 : (toySample r).record.length = r.record := (toySample_valid r hr).record_len
  have hlen : r.record < ((toySample r).bytes r).length := by
    have := (toySample_valid r hr).zsstat.pos
    simp only [WSample.bytes, List.length_append, h1]; omega
  have hb : (body r (toyLog r)).length = ((toySample r).bytes r).length + (((toySample r).bytes r).length +
      ((toySample r).bytes r).length) := by
    simp [toyLog, body]
  unfold toyGrowing
  refine ⟨?_, ?_, ?_⟩
  · intro a b hab; split <;> split <;> (try split) <;> (try split) <;> omega
  · rw [if_pos (by omega)]; omega
  · intro t done w rest e
    have hd : (body r done).length = 0 ∨ (body r done).length = ((toySample r).bytes r).length ∨
        (body r done).length = ((toySample r).bytes r).length + ((toySample r).bytes r).length := by
      unfold toyLog at e
      match done, e with
      | [], _ => left; simp [body]
      | [a], e => right; left; simp only [List.cons_append, List.cons.injEq] at e; rw [← e.1]; simp [body]
      | [a, b], e =>
        right; right; simp only [List.cons_append, List.cons.injEq] at e; rw [← e.1, ← e.2.1]; simp [body]
      | a :: b :: c :: more, e =>
        have := congrArg List.length e
        simp at this
    rw [hb]
    split <;> (try split) <;> omega

/-- **C63** `C63_one_moment`, `C63_program`, **C76** `C76_program`. -/
example (hr : r ∈ table) (rot : Bool) (max : Int) := C63_one_moment hr (toyHeader_valid r hr) (toyLog_valid r hr) rot max
  (toyGrowing_ok r hr).1 (toyGrowing_ok r hr).2.1 (toyGrowing_ok r hr).2.2
example (hr : r ∈ table) (o : Opts) := C63_program hr (toyHeader_valid r hr) (toyLog_valid r hr) o py!"x"
  (toyGrowing_ok r hr).1 (toyGrowing_ok r hr).2.1 (toyGrowing_ok r hr).2.2
example (hr : r ∈ table) (o : Opts) := C76_program hr (toyHeader_valid r hr) (toyLog_valid r hr) o py!"x"
  (toyGrowing_ok r hr).2.1 (toyGrowing_ok r hr).2.2

end Atop

namespace Atop.Src
open Spec
variable {fs : FileSystem} {args : CommandLine} {r : Row} {w : World} {j : Nat} {h : Header}

/-- **C67** `C67_version`, `C67_check_compatibility`, **C69** `C69_header`. -/
example (T : ToyWorld r w j h) (n : Nat) (out : PyStr) := C67_version toyZ fs args n out w j h T.header T.known
example (T : ToyWorld r w j h) (n : Nat) (out : PyStr) := C67_check_compatibility toyZ fs args n out w j h T.header T.known
example (T : ToyWorld r w j h) (n : Nat) (out : PyStr) := C69_header toyZ fs args n out w j h T.header T.known

/-- **C68** `C68_readers`, `C68_unchecked`. -/
example (T : ToyWorld r w j h) (n : Nat) (out : PyStr) (b : Nat) := C68_readers toyZ fs args n out w T.lib j h T.header T.known ⟨h.cls.Record, b⟩ ⟨_, T.known, rfl⟩
example (T : ToyWorld r w j h) (n : Nat) (out : PyStr) := C68_unchecked toyZ fs args n out w T.wf T.lib _ T.returned [.next 0, .use 1 .close, .next 0]
  (by intro before blk off bytes after he; exfalso; have : Obj.Op.write blk off bytes ∈ [Obj.Op.next 0, .use 1 .close, .next 0] := by rw [he]; simp
      simp at this)

/-- **C78** `C78_as_next`, `C78_iterators`. -/
example (T : ToyWorld r w j h) (n : Nat) (out : PyStr) := C78_as_next toyZ fs args n out T.lib T.wf T.header T.read

/-- **C79** `C79_get_record`. -/
example (T : ToyWorld r w j h) (hr : r ∈ table) (n : Nat) (out : PyStr) {B : Blocks} (hB : layoutOf r.version = some B) :=
  C79_get_record toyZ fs args n out T.lib T.wf T.header T.read (B := B) (by rw [toy_start r hr, (valid_accepts hr (toyHeader_valid r hr)).1]; exact hB)

/-- **C78** `C78_any_file`, `C74`: the log of any version as any file. -/
example (hr : r ∈ table) (n : Nat) := C78_any_file toyZ fs args n (toyFile r) (by intro e he; cases he) (.inl rfl)
  (by rw [toy_start r hr]; exact (valid_accepts hr (toyHeader_valid r hr)).2.2.1) 86400 (found := (toyLog r).map (foundOf r)) (t := none)
  (by rw [toy_start r hr]; exact (toy_decoded hr).2)

/-- **C72** `C72_usage`, `C72_exit`: a command line, and one that asks for help. -/
example (U : Nat → Bool) (n : Nat) (w : W) := C72_usage toyZ fs U [py!"a", py!"b"] [py!"CPU"] true false true (by simp) (by decide) (by decide) n w
example (hfs : LibFiles fs) (n : Nat) (out : PyStr) (w : World) : ∃ e w', ((program toyZ fs ⟨fun _ => false, [py!"-h"]⟩).at (n + 7)).call py!"atoparser.reader" py!"main" [] [] (emb out w) =
    (.error (.exit e), emb out w') := by
  have h := C72_parse_args toyZ fs ⟨fun _ => false, [py!"-h"]⟩ 0 W.empty
  have hp : parseArgs (fun _ => false) [py!"-h"] = .error .help := by kernel_rfl
  dsimp only at h
  rw [hp] at h
  obtain ⟨w', hw⟩ := C72_exit toyZ fs ⟨fun _ => false, [py!"-h"]⟩ hfs n out w h
  exact ⟨_, w', hw⟩

/-- **C74** `C74_parse_file`, `C74_program`, **C75** `C75_usage`, `C75_header_json`, `C75_command`, **C77** `C77_program`: file systems with one
file are such as the library gives. -/
example (b : Bytes) (n : Nat) := C74_parse_file toyZ (oneFile b) args (oneFile_lib b) n py!"x" (some [py!"CPU"]) true false false (by decide)
example (b : Bytes) (n : Nat) := C74_program toyZ (oneFile b) args (oneFile_lib b) n
example (b : Bytes) (n : Nat) := C75_usage toyZ (oneFile b) args n (oneFile_lib b) py!"x"
example (b : Bytes) (n : Nat) := C75_header_json toyZ (oneFile b) args n (oneFile_lib b) py!"x"
example (b : Bytes) (n : Nat) (U : Nat → Bool) := C75_command toyZ (oneFile b) U (oneFile_lib b) n py!"x" (by decide)
example (b : Bytes) (n : Nat) (U : Nat → Bool) := C77_program (Z := toyZ) (fs := oneFile b) ⟨U, [py!"a", py!"-P", py!"CPU"]⟩ (oneFile_lib b) n
  (C51_usage U [py!"a"] [py!"CPU"] false false false (by simp) (by decide) (by decide))

/-- **C77** `C77_source`: the log of any version. -/
example (hr : r ∈ table) (n : Nat) (out : PyStr) (w : World) : ∃ m w', ((program toyZ (oneFile (toyHeader r ++ body r (toyLog r))) args).at (n + 6)).call
    py!"atoparser.reader" py!"parse_file" [.str py!"x", namesVal none, .bool true, .bool true, .bool true] [] (emb out w) =
      (.ok .none, emb (out ++ (layOut true 0 .outside m ++ [10])) w') := by
  obtain ⟨_, docs, -, h1, -⟩ := C29_written_log hr (toyHeader_valid r hr) (toyLog_valid r hr) (Nat.le_of_ble_eq_true rfl)
    (o := optsOf none true true) rfl py!"x" (s := { data := toyHeader r ++ body r (toyLog r) }) (by simp [Stream.rest]) rfl
  obtain ⟨m, -, k⟩ := C77_source (fs := oneFile (toyHeader r ++ body r (toyLog r))) args (oneFile_lib _) n out w (file := py!"x") (ps := none) (ts := true)
    (cs := true) (docs := docs) (by rw [path_oneFile]; exact h1)
  obtain ⟨w', hw⟩ := k true
  exact ⟨m, w', hw⟩

end Atop.Src
