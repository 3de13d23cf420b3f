import Verif.Proofs.SourceGenerate
import Verif.Props.ObjectsUnchecked
/-!
# C67, C68: the header and the readers, from their text

`program Z fs args` is the source text of the package, executed; `.at n` lets calls nest `n` deep.  `emb` shows a world of
Model/Objects.lean as a state of the interpreter, `embR` a result, `embExc` an exception (Verif/Spec/SourceGen.lean).
-/

namespace Atop.Src
open Spec

set_option maxRecDepth 20000

section
variable (Z : Zlib) (fs : FileSystem) (args : CommandLine)

/-- **C67** `semantic_version`, `major_version` and `minor_version`, executed: the text and the numbers of the model, and
the object keeps them - nothing else changes. -/
theorem C67_version (n : Nat) (out : PyStr) (w : World) (i : Nat) (h : Header) (hh : w.header i = some h)
    (hc : h.cls ∈ versions) : ∃ v, h.version = .ok v ∧ ∃ w' : World,
      w'.header i = some { h with cache := some v } ∧ w'.heap = w.heap ∧ w'.file = w.file ∧
      attrOf ((program Z fs args).at (n + 2)) (.hdr i) py!"semantic_version" (emb out w) = (.ok (.str (versionString v)), emb out w') ∧
      attrOf ((program Z fs args).at (n + 2)) (.hdr i) py!"major_version" (emb out w) = (.ok (.int v.1), emb out w') ∧
      attrOf ((program Z fs args).at (n + 2)) (.hdr i) py!"minor_version" (emb out w) = (.ok (.int v.2), emb out w') := by
  obtain ⟨v, hv, h1⟩ := eval_semantic (Z := Z) (fs := fs) (args := args) (n := n + 1) (out := out) hh hc
  obtain ⟨v', hv', h2, h3⟩ := eval_part (Z := Z) (fs := fs) (args := args) (n := n) (out := out) hh hc
  rw [hv] at hv'
  cases hv'
  obtain ⟨l1, l2, l3⟩ := latch_header hh
  rw [latched_cache hv] at l1
  exact ⟨v, hv, _, l1, l2, l3, h1, h2, h3⟩

/-- **C67** `header.check_compatibility()`, executed: it raises what the model raises, with its text, or returns `None`. -/
theorem C67_check_compatibility (n : Nat) (out : PyStr) (w : World) (i : Nat) (h : Header) (hh : w.header i = some h)
    (hc : h.cls ∈ versions) :
    (do let f ← attrOf ((program Z fs args).at (n + 3)) (.hdr i) py!"check_compatibility"
        callVal ((program Z fs args).at (n + 3)) f [] [] : E Val) (emb out w) =
      embR out (fun _ => .none) ((do M.latch i; M.lift h.checkCompatibility : M Unit) w) := by
  obtain ⟨o, h1, h2, h3, h4⟩ := header_some hh
  have ho := emb_hdr (out := out) h1
  have hcl : (embH o).cls ∈ versions := by show o.cls ∈ versions; rw [h2]; exact hc
  have : attrOf ((program Z fs args).at (n + 3)) (.hdr i) py!"check_compatibility" (emb out w) =
      (.ok (.bound (.hdr i) py!"atoparser.structs.shared" Text.HeaderMixin.check_compatibility), emb out w) := by
    have hat : (embH o).attrs.lookup py!"check_compatibility" = none := by
      show (attrsOf o.cache).lookup _ = none
      cases o.cache <;> rfl
    simp only [attrOf, hdrAttr, ho, plain_none _ hcl py!"check_compatibility" (by decide), at_globals, mixin_check, hat]
  rw [E.bind_ok this]
  exact call_check hh hc

/-- **C67** `atoparser.get_header(file)`, `get_header(file, check)` and `get_header(file, check_compatibility=check)`,
executed: header objects, memory, file, result and exceptions are those of the model. -/
theorem C67_get_header (n : Nat) (out : PyStr) (w : World) (hl : LibFile w.file) (check : Bool) :
    ((program Z fs args).at (n + 4)).call py!"atoparser" py!"get_header" [.file] [] (emb out w) = embR out .hdr (Obj.getHeader true w) ∧
    ((program Z fs args).at (n + 4)).call py!"atoparser" py!"get_header" [.file, .bool check] [] (emb out w) =
      embR out .hdr (Obj.getHeader check w) ∧
    ((program Z fs args).at (n + 4)).call py!"atoparser" py!"get_header" [.file] [("check_compatibility", .bool check)] (emb out w) =
      embR out .hdr (Obj.getHeader check w) :=
  ⟨call_get_header (as := [.file]) (kws := []) (l := [("raw_file", .file), ("check_compatibility", .bool true)]) rfl hl rfl rfl,
   call_get_header (as := [.file, .bool check]) (kws := []) (l := [("raw_file", .file), ("check_compatibility", .bool check)]) rfl hl rfl rfl,
   call_get_header (as := [.file]) (kws := [("check_compatibility", .bool check)])
     (l := [("raw_file", .file), ("check_compatibility", .bool check)]) rfl hl rfl rfl⟩

theorem sees {w : World} {i : Nat} {h : Header} (hl : LibFile w.file) (hh : w.header i = some h) : Sees w i h.cls := by
  obtain ⟨o, h1, h2, -, -⟩ := header_some hh
  exact ⟨hl, o, h1, h2⟩

/-- **C68** `get_record`, `get_sstat`, `get_tstat` and `get_cstat`, executed on a header of any supported version and a
record of any (perhaps another) version: objects, memory, file, results and exceptions are those of the model. -/
theorem C68_readers (n : Nat) (out : PyStr) (w : World) (hl : LibFile w.file) (i : Nat) (h : Header) (hh : w.header i = some h)
    (hc : h.cls ∈ versions) (x : Ref) (hx : ∃ c ∈ versions, x.ty = c.Record) :
    ((program Z fs args).at (n + 3)).call py!"atoparser" py!"get_record" [.file, .hdr i] [] (emb out w) =
      embR out refVal (Obj.getRecord i w) ∧
    ((program Z fs args).at (n + 3)).call py!"atoparser" py!"get_sstat" [.file, .hdr i, refVal x] [] (emb out w) =
      embR out refVal (Obj.getSStat Z i x w) ∧
    ((program Z fs args).at (n + 3)).call py!"atoparser" py!"get_tstat" [.file, .hdr i, refVal x] [] (emb out w) =
      embR out (fun a => .list (a.map refVal)) (Obj.getTStat Z i x w) ∧
    ((program Z fs args).at (n + 3)).call py!"atoparser" py!"get_cstat" [.file, .hdr i, refVal x] [] (emb out w) =
      embR out (fun a => .list (a.map groupVal)) (Obj.getCStat Z i x w) := by
  have hs := sees hl hh
  refine ⟨?_, ?_, ?_, ?_⟩
  · exact call_ends (ds := []) (as := [.file, .hdr i]) (kws := []) (l := [("raw_file", .file), ("header", .hdr i)]) rfl (by decide +kernel)
      (run_get_record hs hc)
  · exact call_ends (ds := []) (as := [.file, .hdr i, refVal x]) (kws := [])
      (l := [("raw_file", .file), ("header", .hdr i), ("record", refVal x)]) rfl (by decide +kernel) (run_get_sstat hs hc hx)
  · exact call_ends (ds := []) (as := [.file, .hdr i, refVal x]) (kws := [])
      (l := [("raw_file", .file), ("header", .hdr i), ("record", refVal x)]) rfl (by decide +kernel) (run_get_tstat (n := n) hs hc hx)
  · exact call_ends (ds := []) (as := [.file, .hdr i, refVal x]) (kws := [])
      (l := [("raw_file", .file), ("header", .hdr i), ("record", refVal x)]) rfl (by decide +kernel) (run_get_cstat (n := n + 1) hs hc hx)

/-- What a call of `generate_statistics` returns. -/
def genOf (c : Bool × Option Nat × Int) : Val := .gen py!"atoparser.utils" Text.Utils.generate_statistics.body
  [("raw_file", .file), ("header", headerArg c.2.1), ("raise_on_truncation", .bool c.1), ("max_samples", .int c.2.2)]

/-- **C68** `generate_statistics`, executed: each call gives a generator and touches nothing (the arguments left out are
`None`, `True` and 86400); and any number of such generators over one file, sharing header objects or not, stepped in any
order with any writes of the caller to any memory in between, give at every step what those of the model give, in the
state of the model. -/
theorem C68_generate_statistics (n : Nat) (out : PyStr) (w : World) (hl : LibFile w.file) (c : Calls)
    (hh : ∀ p ∈ c, ∀ i, p.2.1 = some i → ∃ h, w.header i = some h ∧ h.cls ∈ versions) (ops : List Obj.Op) :
    ∃ gen : Bool × Option Nat × Int → Val,
      (∀ p s, ((program Z fs args).at (n + 5)).call py!"atoparser" py!"generate_statistics"
        [.file, headerArg p.2.1, .bool p.1, .int p.2.2] [] s = (.ok (gen p), s)) ∧
      (∀ s, ((program Z fs args).at (n + 5)).call py!"atoparser" py!"generate_statistics" [.file] [] s = (.ok (gen (true, none, 86400)), s)) ∧
      (∀ i s, ((program Z fs args).at (n + 5)).call py!"atoparser" py!"generate_statistics" [.file, .hdr i] [] s = (.ok (gen (true, some i, 86400)), s)) ∧
      driven ops (c.map fun p => ((program Z fs args).at (n + 5)).gen (gen p)) (emb out w) =
        (Obj.history Z ops c.objects w).1.map fun r => (r.1, outVal r.2.1, emb out r.2.2) := by
  have hy : Text.Utils.generate_statistics.body.yields = true := by decide +kernel
  have hg : (program Z fs args).globals py!"atoparser" py!"generate_statistics" =
      some (.fn py!"atoparser.utils" Text.Utils.generate_statistics [.none, .bool true, .int 86400]) := rfl
  have hcall : ∀ (as : List Val) (l : List (String × Val)) (s : W),
      bindArgs (withDefaults Text.Utils.generate_statistics.params [.none, .bool true, .int 86400]) as [] = some l →
      ((program Z fs args).at (n + 5)).call py!"atoparser" py!"generate_statistics" as [] s =
        (.ok (.gen py!"atoparser.utils" Text.Utils.generate_statistics.body l), s) := by
    intro as l s hb
    unfold Rt.call
    rw [at_globals, hg]
    show callFn _ _ _ _ _ _ _ = _
    unfold callFn
    rw [hb]
    dsimp only
    rw [if_pos hy]
    rfl
  refine ⟨genOf, fun p s => hcall _ _ s rfl, fun s => hcall _ _ s rfl, fun i s => hcall _ _ s rfl, ?_⟩
  refine driven_eq (Z := Z) (fs := fs) (args := args) ops _ _ w ⟨by simp [Calls.objects], ?_⟩
  intro k g p hk hp
  unfold Calls.objects at hk
  rw [List.getElem?_map] at hk hp
  cases hc : c[k]? with
  | none => rw [hc] at hk; cases hk
  | some q =>
    rw [hc] at hk hp
    cases hk
    cases hp
    obtain ⟨rot, hd, max⟩ := q
    refine ⟨⟨n, _, ⟨rfl, ?_, rfl, rfl⟩, rfl⟩, hl, ?_⟩
    · cases hd <;> rfl
    · cases hd with
      | none => trivial
      | some i =>
        obtain ⟨h, h1, h2⟩ := hh _ (List.mem_of_getElem? hc) i rfl
        exact ⟨h.cls, h2, sees hl h1⟩

theorem classFor_mem (hb : Bytes) : classFor hb ∈ versions := by
  unfold classFor
  cases hc : headerByVersion (versionString (major hb, minor hb)) with
  | some c => exact byVersion_mem hc
  | none => show defaultHeader ∈ versions; simp [versions, defaultHeader]

/-- **C68** ... and so, with writes that leave the two recorded lengths of a header alone, every step of the executed text
shows what the step on values shows (the model of the other properties). -/
theorem C68_values (n : Nat) (out : PyStr) (w : World) (W : w.WF) (hl : LibFile w.file) (c : Calls) (H : c.Held w)
    (ops : List Obj.Op)
    (ok : ∀ blk off bytes, .write blk off bytes ∈ ops →
      blk ∈ (Obj.history Z ops c.objects w).2.2.headers.map HObj.blk → Spares off bytes.length) :
    ∃ (gen : Bool × Option Nat × Int → Val) (rs : List (Nat × Obj.Out × World)),
      (∀ p s, ((program Z fs args).at (n + 5)).call py!"atoparser" py!"generate_statistics"
        [.file, headerArg p.2.1, .bool p.1, .int p.2.2] [] s = (.ok (gen p), s)) ∧
      driven ops (c.map fun p => ((program Z fs args).at (n + 5)).gen (gen p)) (emb out w) =
        rs.map (fun r => (r.1, outVal r.2.1, emb out r.2.2)) ∧
      rs.map (fun r => (r.1, r.2.2.out r.2.1)) = (used Z (stepsOf ops) (c.values w) w.file).1 := by
  obtain ⟨gen, h1, -, -, h2⟩ := C68_generate_statistics Z fs args n out w hl c (by
    intro p hp i hi
    obtain ⟨h, s0, s1, hh, hg⟩ := H p hp i hi
    refine ⟨h, hh, ?_⟩
    rw [(getHeader_ok hg).1]; exact classFor_mem _) ops
  exact ⟨gen, _, h1, h2, (C65_history Z W H ops ok).1⟩

/-- **C68** ... also with headers that `get_header` returned without the check, whose version may not have been evaluated yet, if
no write changes the version number while that is so. -/
theorem C68_unchecked (n : Nat) (out : PyStr) (w : World) (W : w.WF) (hl : LibFile w.file) (c : Calls) (H : c.Returned w)
    (ops : List Obj.Op) (ok : Mild Z ops c.objects w) :
    ∃ (gen : Bool × Option Nat × Int → Val) (rs : List (Nat × Obj.Out × World)),
      (∀ p s, ((program Z fs args).at (n + 5)).call py!"atoparser" py!"generate_statistics"
        [.file, headerArg p.2.1, .bool p.1, .int p.2.2] [] s = (.ok (gen p), s)) ∧
      driven ops (c.map fun p => ((program Z fs args).at (n + 5)).gen (gen p)) (emb out w) =
        rs.map (fun r => (r.1, outVal r.2.1, emb out r.2.2)) ∧
      rs.map (fun r => (r.1, r.2.2.out r.2.1)) = (used Z (stepsOf ops) (c.values w) w.file).1 := by
  obtain ⟨gen, h1, -, -, h2⟩ := C68_generate_statistics Z fs args n out w hl c (by
    intro p hp i hi
    obtain ⟨h, check, s0, s1, hh, hg⟩ := H p hp i hi
    refine ⟨h, hh, ?_⟩
    cases check with
    | true => rw [(getHeader_ok hg).1]; exact classFor_mem _
    | false => rw [getHeader_unchecked hg]; exact classFor_mem _) ops
  exact ⟨gen, _, h1, h2, (C65_unchecked_history Z W H ops ok).1⟩

set_option linter.constructorNameAsVariable false in
/-- C67 and C68 on the toy log of every version: `get_header(file)`, executed, returns a header object; the generator of
`generate_statistics(file, header, False, 5)`, executed, hands out a tuple of objects whose memory holds the first sample. -/
example (r : Row) (hr : r ∈ table) : ∃ (j : Nat) (h : Header) (w w1 : World) (g : Val) (x : Obj.Tuple) (y : Sample),
    ((program toyZ fs args).at 5).call py!"atoparser" py!"get_header" [.file] []
      (emb [] { file := { data := toyHeader r ++ body r (toyLog r) } }) = (.ok (.hdr j), emb [] w) ∧
    ((program toyZ fs args).at 5).call py!"atoparser" py!"generate_statistics" [.file, .hdr j, .bool false, .int 5] [] (emb [] w) =
      (.ok g, emb [] w) ∧
    driven [.next 0] [((program toyZ fs args).at 5).gen g] (emb [] w) = [(0, .yield (tupleVal x), emb [] w1)] ∧
    w1.tuple x = y ∧ getHeader true { data := toyHeader r ++ body r (toyLog r) } = (.ok h, w.file) ∧
    ((Gen.start (some h) 5).next toyZ false w.file).1 = .yield y := by
  obtain ⟨h, y, g, s', hg, hh⟩ := toy_first_next r hr false
  generalize ({ data := toyHeader r ++ body r (toyLog r) } : Stream).adv 480 = s at hg hh
  have one := history_one hh
  let w0 : World := { file := { data := toyHeader r ++ body r (toyLog r) } }
  have lib : LibFile w0.file := by intro e he; cases he
  have text := (C67_get_header toyZ fs args 1 [] w0 lib true).1
  obtain ⟨g1, g2, -, g4⟩ := C65_get_header w0 nofun true
  have hf : w0.file = { data := toyHeader r ++ body r (toyLog r) } := rfl
  rw [hf, hg] at g1 g4
  have lib' := (Safe.getHeader true w0).1 lib
  generalize Obj.getHeader true w0 = R at g1 g2 g4 text lib'
  obtain ⟨e | j, w⟩ := R
  · exact g4.elim
  obtain ⟨k1, o, k2, k3⟩ := g4
  dsimp only at g1 g2 k1 k2 k3 lib'
  have held : Calls.Held w [(false, some j, 5)] := by
    intro p hp i hi
    rw [List.mem_singleton.mp hp] at hi
    cases hi
    exact ⟨h, _, _, k1, hg⟩
  obtain ⟨gen, rs, c1, c2, c3⟩ := C68_values toyZ fs args 0 [] w g2 lib' [(false, some j, 5)] held [.next 0] (by
    intro blk off bytes hm _
    cases List.mem_singleton.mp hm)
  have il : (used toyZ [(0, .next)] (Calls.values w [(false, some j, 5)]) w.file).1 = [(0, .yield y)] := by
    rw [← one, g1]
    show [(0, (Gen.next toyZ false (.start (w.header j) 5) s).1)] = _
    rw [k1]
  rw [show stepsOf [.next 0] = [(0, .next)] from rfl, il] at c3
  match rs, c3 with
  | [(i, .yield x, w1)], c3 =>
    injection c3 with c3 _
    injection c3 with c3 c4
    subst c3
    injection c4 with c4
    refine ⟨j, h, w, w1, gen (false, some j, 5), x, y, text, c1 (false, some j, 5) _, c2, c4, ?_, ?_⟩
    · rw [hg, g1]
    · rw [g1]; exact one

end
end Atop.Src
