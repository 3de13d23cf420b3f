import Verif.Proofs.SourceResult
/-!
# C74: from the source text to the bytes of the file

The functions are executed from their source text; the files, layouts and results are those of the specifications.  No model
of the code is mentioned in these statements.
-/

namespace Atop.Src
open Spec
set_option maxRecDepth 20000

section
variable (Z : Zlib) (fs : FileSystem) (args : CommandLine)

/-- **C74** `get_header(raw_file)` from the source text, on any file: it raises the error of the container when that breaks
off inside the header, the prescribed exception with its text when the header is refused (Spec/Result.lean), and otherwise
returns a header object that shows the first 480 bytes - converted, and read attribute by attribute - by the literal layout of the version in use, and whose
`semantic_version` is the text of the version bytes. -/
theorem C74_header (n : Nat) (s : Stream) (hl : LibFile s) : ∃ r w1,
    ((program Z fs args).at (n + 5)).call py!"atoparser" py!"get_header" [.file] [] (opened s) = (r, w1) ∧
    (∀ e, s.short = some e → s.rest.length < 480 → r = .error (.sys e)) ∧
    (s.short = none ∨ 480 ≤ s.rest.length → (∀ e, RefusedWith (first480 s.rest) e → r = .error (embExc e)) ∧
      (Accepts (first480 s.rest) → ∃ i B, r = .ok (.hdr i) ∧ layoutOf (usedRow (first480 s.rest)).version = some B ∧
        Displays ((program Z fs args).at (n + 5)) w1 (.hdr i) B.header (first480 s.rest) ∧
        ∃ w2, attrOf ((program Z fs args).at (n + 5)) (.hdr i) py!"semantic_version" w1 =
          (.ok (.str (versionText (major (first480 s.rest)) (minor (first480 s.rest)))), w2))) := by
  have hcall := (C67_get_header Z fs args (n + 1) [] { file := s } hl true).1
  obtain ⟨g1, g2, -, g4⟩ := C65_get_header { file := s } nofun true
  refine ⟨_, _, hcall, ?_, ?_⟩
  · intro e he hs
    have hx : (getHeader true s).1 = .error e := C09_damaged_container s e he hs true
    revert g4
    generalize Obj.getHeader true { file := s } = R
    obtain ⟨e' | j, w'⟩ := R <;> intro g4
    · dsimp only at g4; rw [hx] at g4; subst g4
      show Except.error (embExc e') = _
      rw [hl e' he]
    · dsimp only at g4; rw [hx] at g4; exact g4.elim
  · intro enough
    refine ⟨?_, ?_⟩
    · intro e he
      have hx := (refused_iff enough e).mpr he
      revert g4
      generalize Obj.getHeader true { file := s } = R
      obtain ⟨e' | j, w'⟩ := R <;> intro g4
      · dsimp only at g4; rw [hx] at g4; subst g4; rfl
      · dsimp only at g4; rw [hx] at g4; exact g4.elim
    · intro hA
      obtain ⟨c, hc, hx⟩ := C08_header_result s enough hA
      revert g4
      generalize Obj.getHeader true { file := s } = R at g2
      obtain ⟨e' | j, w'⟩ := R <;> intro g4
      · dsimp only at g4; rw [hx] at g4; exact g4.elim
      · dsimp only at g4; rw [hx] at g4
        obtain ⟨k1, -⟩ := g4
        obtain ⟨c', B, hc', hB, ⟨n1, -⟩, ⟨s1, -⟩, ⟨m1, -⟩⟩ := layout_facts (usedRow_mem (first480 s.rest))
        obtain rfl : c = c' := by rw [hc] at hc'; exact Option.some.inj hc'
        have hv : c ∈ versions := by
          have := congrArg Header.cls (getHeader_ok (h := ⟨c, _, _⟩) (s := s) (hx)).1
          rw [show c = classFor (first480 s.rest) from this]
          exact classFor_mem _
        refine ⟨j, B, rfl, hB, ?_, ?_⟩
        · exact displays_header Z fs args n [] k1 hv n1 m1 (by rw [s1, first480_length])
        · obtain ⟨v, e1, w2, -, -, -, e2, -⟩ := C67_version Z fs args (n + 3) [] w' j _ k1 hv
          refine ⟨emb [] w2, ?_⟩
          rw [versionText_eq]
          cases e1
          exact e2

theorem got {rs : List (Obj.Out × World)} {k j : Nat} {o : POut} {w2 : W}
    (hk : (rs.map fun r => (0, outVal r.1, emb [] r.2))[k]? = some (j, o, w2)) :
    ∃ r, rs[k]? = some r ∧ o = outVal r.1 ∧ w2 = emb [] r.2 := by
  rw [List.getElem?_map] at hk
  cases hr : rs[k]? with
  | none => rw [hr] at hk; cases hk
  | some r => rw [hr] at hk; cases hk; exact ⟨r, rfl, rfl, rfl⟩

theorem found_sized {Z : Zlib} {hb : Bytes} (hA : Accepts hb) {whole : Bool} {max : Nat} {b : Bytes} {found : List Found} {t : Option Trouble}
    (hd : decodeLog Z (usedRow hb) (readsCGroups hb) whole max b = (found, t)) : ∀ f ∈ found.map Found.written, Sized (usedRow hb) f := by
  intro f hf
  obtain ⟨q, hq, rfl⟩ := List.mem_map.mp hf
  refine sized_found (fun h => ?_) (decodeLog_fits (Z := Z) _ _ q (by rw [hd]; exact hq))
  rw [← hA.2.2.2.2.2.2 h]; rfl

/-- The end of an iteration in the interpreter. -/
def endVal : End → POut
  | .returned => .stop
  | .raised e => .raise (embExc e)

theorem lastOut_eq {en : End} {short : Option Exc} {rot : Bool} {t : Option Trouble} (h : en = match (generalizing := false) t with
      | none => .returned
      | some t => if troubleExc short t = .zlibError ∧ rot = false then .returned else .raised (troubleExc short t)) :
    endVal en = lastOut short rot t := by
  subst h
  cases t with
  | none => rfl
  | some t =>
    show endVal (if _ then _ else _) = if _ then _ else _
    split <;> rfl

/-- A generator of the text and the decoder. -/
theorem iteration_core (n : Nat) {w : World} (hl : LibFile w.file) {rot : Bool} {hd : Option Nat} {hd' : Option Header} {max : Int}
    (hh : ∀ i, hd = some i → ∃ h, w.header i = some h ∧ h.cls ∈ versions)
    (G : GNow w (.start hd max) (.start hd' max)) {r : Row} (hr : r ∈ table) {c : HeaderClass} (hc : headerByVersion r.version = some c)
    {B : Blocks} (hB : layoutOf r.version = some B) {found : List WSample}
    (F : ∀ f ∈ found, Sized r f) {en : End}
    (h1 : (generateStatistics Z hd' rot max w.file).1 = found.map (presented c))
    (h2 : (generateStatistics Z hd' rot max w.file).2.1 = en) :
    ∃ g, (∀ s, ((program Z fs args).at (n + 5)).call py!"atoparser" py!"generate_statistics" [.file, headerArg hd, .bool rot, .int max] [] s = (.ok g, s)) ∧
      ∀ N, ∃ rs : List (Obj.Out × World),
        driven (List.replicate N (Obj.Op.next 0)) [((program Z fs args).at (n + 5)).gen g] (emb [] w) =
          rs.map (fun r => (0, outVal r.1, emb [] r.2)) ∧ rs.length = N ∧ (∀ r ∈ rs, w.Ext r.2) ∧
        ∀ k r, rs[k]? = some r →
          (∀ f, found[k]? = some f → ∃ x, outVal r.1 = .yield x ∧ ∀ m r', k ≤ m → rs[m]? = some r' →
            TupleShows ((program Z fs args).at (n + 5)) (emb [] r'.2) B f x) ∧
          (k = found.length → outVal r.1 = endVal en) ∧ (found.length < k → outVal r.1 = .stop) := by
  obtain ⟨gen, k1, -, -, -⟩ := C68_generate_statistics Z fs args n [] w hl [(rot, hd, max)] (by
    intro p hp i hi
    rw [List.mem_singleton.mp hp] at hi
    exact hh i hi) []
  refine ⟨gen (rot, hd, max), fun s => k1 (rot, hd, max) s, fun N => ?_⟩
  obtain ⟨gen', k1', -, -, k2⟩ := C68_generate_statistics Z fs args n [] w hl [(rot, hd, max)] (by
    intro p hp i hi
    rw [List.mem_singleton.mp hp] at hi
    exact hh i hi) ((List.replicate N .next).map (Obj.Op.use 0))
  have e0 : gen' (rot, hd, max) = gen (rot, hd, max) := by
    have a := k1 (rot, hd, max) W.empty
    rw [k1' (rot, hd, max) W.empty] at a
    injection a with a _
    injection a
  have e2 : (Obj.history Z ((List.replicate N .next).map (Obj.Op.use 0)) (Calls.objects [(rot, hd, max)]) w).1 =
      (oneRun Z rot (List.replicate N .next) (.start hd max) w).map fun r => (0, r.1, r.2) := oneRun_history Z rot _ _ w
  have outs := run_outs Z (rot := rot) N _ _ w G
  have hlen := oneRun_length Z rot (List.replicate N .next) (.start hd max) w
  rw [List.length_replicate] at hlen
  refine ⟨oneRun Z rot (List.replicate N .next) (.start hd max) w, ?_, hlen, ?_, ?_⟩
  · rw [e2, List.map_map, List.map_replicate] at k2
    rw [List.map_cons, List.map_nil, e0] at k2
    exact k2
  · intro r hr
    obtain ⟨k, hk⟩ := List.getElem?_of_mem hr
    exact (run_ext Z _ _ _ w G k r hk).1
  · intro k r hk
    obtain ⟨e1, hb, ext⟩ := run_ext Z _ _ _ w G k r hk
    have ho : (nexts Z rot N (.start hd' max) w.file)[k]? = some (r.2.out r.1) := by
      rw [← outs, List.getElem?_map, hk]; rfl
    obtain ⟨a1, a2, a3⟩ := nexts_get Z rot N _ _ k _ ho
    have all : allOf Z rot (.start hd' max) w.file = found.map (presented c) := h1
    rw [all, List.length_map] at a2 a3
    rw [all] at a1
    refine ⟨?_, ?_, ?_⟩
    · intro f hf
      have := a1 (presented c f) (by rw [List.getElem?_map, hf]; rfl)
      cases hr1 : r.1 with
      | stop => rw [hr1] at this; cases this
      | raise e => rw [hr1] at this; cases this
      | yield x =>
        rw [hr1] at this hb
        injection this with hx
        refine ⟨tupleVal x, rfl, fun m r' hm hr' => ?_⟩
        exact tuple_shows Z fs args n [] hr hc hB (F f (List.mem_of_getElem? hf)) (by rw [ext_tuple (ext m r' hm hr') hb]; exact hx)
    · intro hk'
      have := a2 hk'
      rw [endingOf, h2] at this
      have key : ∀ o : Out, r.2.out r.1 = o → (∀ x, o ≠ .yield x) → outVal r.1 = match o with | .raise e => .raise (embExc e) | _ => .stop := by
        intro o ho hne
        cases hr1 : r.1 with
        | stop => rw [hr1] at ho; subst ho; rfl
        | raise e => rw [hr1] at ho; subst ho; rfl
        | yield x => rw [hr1] at ho; exact absurd ho.symm (hne _)
      cases en with
      | returned => exact key _ this nofun
      | raised e => exact key _ this nofun
    · intro hk'
      have := a3 hk'
      cases hr1 : r.1 with
      | stop => rfl
      | raise e => rw [hr1] at this; cases this
      | yield x => rw [hr1] at this; cases this

/-- The header, then the iteration, in terms of the samples of the model. -/
theorem with_header (n : Nat) (s : Stream) (hl : LibFile s) (enough : s.short = none ∨ 480 ≤ s.rest.length)
    (hA : Accepts (first480 s.rest)) (rot : Bool) (max : Int) {c : HeaderClass}
    (hc : headerByVersion (usedRow (first480 s.rest)).version = some c) {found : List WSample}
    (F : ∀ f ∈ found, Sized (usedRow (first480 s.rest)) f) {en : End}
    (h1 : (generateStatistics Z none rot max s).1 = found.map (presented c)) (h2 : (generateStatistics Z none rot max s).2.1 = en) :
    ∃ i w1 B g, ((program Z fs args).at (n + 5)).call py!"atoparser" py!"get_header" [.file] [] (opened s) = (.ok (.hdr i), w1) ∧
      layoutOf (usedRow (first480 s.rest)).version = some B ∧
      ((program Z fs args).at (n + 5)).call py!"atoparser" py!"generate_statistics" [.file, .hdr i, .bool rot, .int max] [] w1 = (.ok g, w1) ∧
      ∀ N, let run := driven (List.replicate N (Obj.Op.next 0)) [((program Z fs args).at (n + 5)).gen g] w1
        run.length = N ∧ ∀ k j o w2, run[k]? = some (j, o, w2) →
          (∀ f, found[k]? = some f → ∃ x, o = .yield x ∧ ∀ m j' o' w3, k ≤ m → run[m]? = some (j', o', w3) →
            TupleShows ((program Z fs args).at (n + 5)) w3 B f x) ∧
          (k = found.length → o = endVal en) ∧ (found.length < k → o = .stop) ∧
          Displays ((program Z fs args).at (n + 5)) w2 (.hdr i) B.header (first480 s.rest) := by
  have hcall := (C67_get_header Z fs args (n + 1) [] { file := s } hl true).1
  obtain ⟨g1, g2, -, g4⟩ := C65_get_header { file := s } nofun true
  obtain ⟨c2, hc2, hx⟩ := C08_header_result s enough hA
  obtain rfl : c = c2 := by rw [hc] at hc2; exact Option.some.inj hc2
  have hn := generate_none (Z := Z) rot max s
  dsimp only at g1 g2 g4
  generalize Obj.getHeader true { file := s } = R at hcall g1 g2 g4
  rw [hx] at g1 g4 hn
  obtain ⟨e' | i, w⟩ := R
  · exact g4.elim
  obtain ⟨k1, -⟩ := g4
  dsimp only at g1 g2 k1 hn
  obtain ⟨c', B, hc', hB, ⟨n1, -⟩, ⟨s1, -⟩, ⟨m1, -⟩⟩ := layout_facts (usedRow_mem (first480 s.rest))
  obtain rfl : c = c' := by rw [hc] at hc'; exact Option.some.inj hc'
  have hv : c ∈ versions := by
    have := congrArg Header.cls (getHeader_ok (h := ⟨c, _, _⟩) (s := s) (hx)).1
    rw [show c = classFor (first480 s.rest) from this]
    exact classFor_mem _
  have hat := header_at g2 k1
  rw [hn, ← g1] at h1 h2
  obtain ⟨g, e1, e2⟩ := iteration_core Z fs args n (w := w) (hd := some i) (by intro e he; rw [g1] at he; exact hl e he)
    (by intro j hj; cases hj; exact ⟨_, k1, hv⟩) (hd' := some _) ⟨rfl, hat, rfl⟩ (usedRow_mem _) hc hB F h1 h2
  refine ⟨i, emb [] w, B, g, hcall, hB, e1 _, fun N => ?_⟩
  obtain ⟨rs, r1, r2, r3, r4⟩ := e2 N
  dsimp only
  rw [r1]
  refine ⟨by rw [List.length_map]; exact r2, ?_⟩
  intro k j o w2 hk
  obtain ⟨r, hr, rfl, rfl⟩ := got hk
  obtain ⟨a1, a2, a3⟩ := r4 k r hr
  refine ⟨?_, a2, a3, ?_⟩
  · intro f hf
    obtain ⟨x, x1, x2⟩ := a1 f hf
    refine ⟨x, x1, fun m j' o' w3 hm hq => ?_⟩
    obtain ⟨r', hr', -, rfl⟩ := got hq
    exact x2 m r' hm hr'
  · have hh := (hat.ext (r3 r (List.mem_of_getElem? hr))).header
    exact displays_header Z fs args n [] hh hv n1 m1 (by rw [s1, first480_length])

/-- **C74** `generate_statistics(raw_file, header, raise_on_truncation, max_samples)` from the source text, with the header
`get_header` returned for the same file, on any file whose header is accepted.  The reference decoder of Spec/Decode.lean
says what the rest of the file holds.  The `k`-th call of `next()` hands out the tuple of the `k`-th sample found;
converted or read attribute by attribute, then or after any later call, its objects show the bytes of that sample by the
literal layouts of the version.
The call after the last sample ends the iteration or raises the exception of the trouble found there; further calls end
it again.  The header object shows what it showed. -/
theorem C74_iteration (n : Nat) (s : Stream) (hl : LibFile s) (enough : s.short = none ∨ 480 ≤ s.rest.length)
    (hA : Accepts (first480 s.rest)) (rot : Bool) (max : Int) {found : List Found} {t : Option Trouble}
    (hd : decodeLog Z (usedRow (first480 s.rest)) (readsCGroups (first480 s.rest)) s.short.isNone max.toNat (s.rest.drop 480) = (found, t)) :
    ∃ i w1 B g, ((program Z fs args).at (n + 5)).call py!"atoparser" py!"get_header" [.file] [] (opened s) = (.ok (.hdr i), w1) ∧
      layoutOf (usedRow (first480 s.rest)).version = some B ∧
      ((program Z fs args).at (n + 5)).call py!"atoparser" py!"generate_statistics" [.file, .hdr i, .bool rot, .int max] [] w1 = (.ok g, w1) ∧
      ∀ N, let run := driven (List.replicate N (Obj.Op.next 0)) [((program Z fs args).at (n + 5)).gen g] w1
        run.length = N ∧ ∀ k j o w2, run[k]? = some (j, o, w2) →
          (∀ f, found[k]? = some f → ∃ x, o = .yield x ∧ ∀ m j' o' w3, k ≤ m → run[m]? = some (j', o', w3) →
            TupleShows ((program Z fs args).at (n + 5)) w3 B f.written x) ∧
          (k = found.length → o = lastOut s.short rot t) ∧ (found.length < k → o = .stop) ∧
          Displays ((program Z fs args).at (n + 5)) w2 (.hdr i) B.header (first480 s.rest) := by
  obtain ⟨c, hc, hx⟩ := C08_header_result s enough hA
  have hn := generate_none (Z := Z) rot max s
  rw [hx] at hn
  obtain ⟨d1, d2⟩ := C53_decoder Z hx rot max { s with pos := s.pos + min 480 s.rest.length } (fs := found) (t := t) (by
    have e1 : Stream.rest { s with pos := s.pos + min 480 s.rest.length } = s.rest.drop 480 := Stream.skip_rest s 480
    rw [e1]; exact hd)
  obtain ⟨i, w1, B, g, a1, a2, a3, a4⟩ := with_header Z fs args n s hl enough hA rot max hc (found := found.map Found.written)
    (found_sized hA hd) (by rw [hn, List.map_map]; exact d1) (by rw [hn])
  refine ⟨i, w1, B, g, a1, a2, a3, fun N => ⟨(a4 N).1, fun k j o w2 hk => ?_⟩⟩
  obtain ⟨b1, b2, b3, b4⟩ := (a4 N).2 k j o w2 hk
  rw [List.length_map] at b2 b3
  exact ⟨fun f hf => b1 f.written (by rw [List.getElem?_map, hf]; rfl), fun h => (b2 h).trans (lastOut_eq d2), b3, b4⟩

/-- **C74** The same without a header: `generate_statistics(raw_file, None, raise_on_truncation, max_samples)` reads it
itself, at the first `next()`.  When the header is accepted the tuples and the end are those above; when it is refused, or
the container breaks off inside it, the first call raises that exception and further calls end the iteration. -/
theorem C74_no_header (n : Nat) (s : Stream) (hl : LibFile s) (rot : Bool) (max : Int) : ∃ g,
    ((program Z fs args).at (n + 5)).call py!"atoparser" py!"generate_statistics" [.file, .none, .bool rot, .int max] [] (opened s) = (.ok g, opened s) ∧
    ∀ N, let run := driven (List.replicate N (Obj.Op.next 0)) [((program Z fs args).at (n + 5)).gen g] (opened s)
      run.length = N ∧
      ((s.short = none ∨ 480 ≤ s.rest.length) → Accepts (first480 s.rest) → ∀ found t,
        decodeLog Z (usedRow (first480 s.rest)) (readsCGroups (first480 s.rest)) s.short.isNone max.toNat (s.rest.drop 480) = (found, t) →
        ∃ B, layoutOf (usedRow (first480 s.rest)).version = some B ∧ ∀ k j o w2, run[k]? = some (j, o, w2) →
          (∀ f, found[k]? = some f → ∃ x, o = .yield x ∧ ∀ m j' o' w3, k ≤ m → run[m]? = some (j', o', w3) →
            TupleShows ((program Z fs args).at (n + 5)) w3 B f.written x) ∧
          (k = found.length → o = lastOut s.short rot t) ∧ (found.length < k → o = .stop)) ∧
      (∀ e, (s.short = some e ∧ s.rest.length < 480) ∨ ((s.short = none ∨ 480 ≤ s.rest.length) ∧ RefusedWith (first480 s.rest) e) →
        ∀ k j o w2, run[k]? = some (j, o, w2) → (k = 0 → o = .raise (embExc e)) ∧ (0 < k → o = .stop)) := by
  obtain ⟨gen, k1, -, -, -⟩ := C68_generate_statistics Z fs args n [] { file := s } hl [(rot, none, max)] (by
    intro p hp i hi
    rw [List.mem_singleton.mp hp] at hi
    cases hi) []
  refine ⟨gen (rot, none, max), k1 (rot, none, max) _, fun N => ?_⟩
  dsimp only
  have same : ∀ g, (∀ s, ((program Z fs args).at (n + 5)).call py!"atoparser" py!"generate_statistics" [.file, headerArg none, .bool rot, .int max] [] s = (.ok g, s)) →
      g = gen (rot, none, max) := by
    intro g hg
    have a := k1 (rot, none, max) W.empty
    have b := hg W.empty
    have : (Except.ok g, W.empty) = (Except.ok (gen (rot, none, max)), W.empty) := b.symm.trans a
    injection this with this _
    injection this
  have G : GNow { file := s } (.start none max) (.start none max) := rfl
  rcases hg : getHeader true s with ⟨e | h, s'⟩
  · -- refused
    have hn := generate_none (Z := Z) rot max s
    rw [hg] at hn
    obtain ⟨c, B, hc, hB, -⟩ := layout_facts (usedRow_mem (first480 s.rest))
    obtain ⟨g, a1, a2⟩ := iteration_core Z fs args n (w := { file := s }) (hd := none) (hd' := none) (rot := rot) (max := max) hl nofun G
      (usedRow_mem (first480 s.rest)) hc hB (found := []) nofun (en := .raised e) (by rw [hn]; rfl) (by rw [hn])
    obtain rfl := same g a1
    obtain ⟨rs, r1, r2, r3, r4⟩ := a2 N
    have r1 : driven (List.replicate N (Obj.Op.next 0)) [((program Z fs args).at (n + 5)).gen (gen (rot, none, max))] (opened s) = _ := r1
    rw [r1]
    refine ⟨by rw [List.length_map]; exact r2, ?_, ?_⟩
    · intro enough hA
      obtain ⟨c, -, hx⟩ := C08_header_result s enough hA
      rw [hg] at hx; cases hx
    · intro e' he' k j o w2 hk
      obtain rfl : e = e' := by
        rcases he' with ⟨h1, h2⟩ | ⟨enough, h⟩
        · have := C09_damaged_container s e' h1 h2 true
          rw [hg] at this; cases this; rfl
        · have := (refused_iff enough e').mpr h
          rw [hg] at this; cases this; rfl
      obtain ⟨r, hr, rfl, rfl⟩ := got hk
      exact ⟨(r4 k r hr).2.1, (r4 k r hr).2.2⟩
  · have hok := getHeader_ok hg
    obtain ⟨enough, hA⟩ : (s.short = none ∨ 480 ≤ s.rest.length) ∧ Accepts (first480 s.rest) := ⟨hok.2.2.2.2, hok.2.2.1⟩
    obtain ⟨c, hc, hx⟩ := C08_header_result s enough hA
    obtain ⟨c', B, hc', hB, -⟩ := layout_facts (usedRow_mem (first480 s.rest))
    obtain rfl : c = c' := by rw [hc] at hc'; exact Option.some.inj hc'
    have hn := generate_none (Z := Z) rot max s
    rw [hx] at hn
    cases hd : decodeLog Z (usedRow (first480 s.rest)) (readsCGroups (first480 s.rest)) s.short.isNone max.toNat (s.rest.drop 480) with
    | mk found t =>
    obtain ⟨d1, d2⟩ := C53_decoder Z hx rot max { s with pos := s.pos + min 480 s.rest.length } (fs := found) (t := t) (by
      have e1 : Stream.rest { s with pos := s.pos + min 480 s.rest.length } = s.rest.drop 480 := Stream.skip_rest s 480
      rw [e1]; exact hd)
    obtain ⟨g, a1, a2⟩ := iteration_core Z fs args n (w := { file := s }) (hd := none) (hd' := none) (rot := rot) (max := max) hl nofun G
      (usedRow_mem (first480 s.rest)) hc hB 
      (found := found.map Found.written) (found_sized hA hd) (by rw [hn, List.map_map]; exact d1) (by rw [hn])
    obtain rfl := same g a1
    obtain ⟨rs, r1, r2, r3, r4⟩ := a2 N
    have r1 : driven (List.replicate N (Obj.Op.next 0)) [((program Z fs args).at (n + 5)).gen (gen (rot, none, max))] (opened s) = _ := r1
    rw [r1]
    refine ⟨by rw [List.length_map]; exact r2, ?_, ?_⟩
    · intro _ _ found' t' heq
      cases heq
      refine ⟨B, hB, fun k j o w2 hk => ?_⟩
      obtain ⟨r, hr, rfl, rfl⟩ := got hk
      obtain ⟨a1, a2, a3⟩ := r4 k r hr
      rw [List.length_map] at a2 a3
      refine ⟨?_, fun h => (a2 h).trans (lastOut_eq d2), a3⟩
      intro f hf
      obtain ⟨x, x1, x2⟩ := a1 f.written (by rw [List.getElem?_map, hf]; rfl)
      refine ⟨x, x1, fun m j' o' w3 hm hq => ?_⟩
      obtain ⟨r', hr', -, rfl⟩ := got hq
      exact x2 m r' hm hr'
    · intro e' he'
      rcases he' with ⟨h1, h2⟩ | ⟨enough, h⟩
      · have := C09_damaged_container s e' h1 h2 true
        rw [hg] at this; cases this
      · have := (refused_iff enough e').mpr h
        rw [hg] at this; cases this

/-- **C74** `parse_file(file, parseables, pretty_print, show_tstats, show_cstats)` from the source text, with names of
parseables the program knows: either a list of entries is prescribed for the file (Spec/Result.lean) and it prints a text,
which is JSON with exactly one reading, the one that says these entries, and returns `None`; or an exception is prescribed, and
it raises that and prints nothing. -/
theorem C74_parse_file (hfs : LibFiles fs) (n : Nat) (file : PyStr) (parseables : Option (List PyStr)) (pretty tst cst : Bool)
    (hn : ∀ p ∈ parseables.getD [], p ∈ parseableNames) : ∃ r w',
    ((program Z fs args).at (n + 6)).call py!"atoparser.reader" py!"parse_file"
        [.str file, namesVal parseables, .bool pretty, .bool tst, .bool cst] [] W.empty = (r, w') ∧
      ((∃ docs a, PathPrescribed Z fs (optsOf parseables tst cst) file (.ok docs) ∧ r = .ok .none ∧ Says (.list docs) a ∧
          JsonText true w'.out a ∧ ∀ b, JsonText true w'.out b → b = a) ∨
       ∃ e, PathPrescribed Z fs (optsOf parseables tst cst) file (.error e) ∧ r = .error (embExc e) ∧ w'.out = []) := by
  obtain ⟨w', h⟩ := C70_parse_file Z fs args hfs n [] { file := { data := [] } } file parseables pretty tst cst
  have hn' : ∀ p ∈ (optsOf parseables tst cst).parseables, p ∈ parseableNames := by
    intro p hp
    refine hn p ?_
    unfold optsOf at hp
    cases parseables with
    | none => cases hp
    | some ps => exact hp
  refine ⟨_, _, h, ?_⟩
  cases hp : parsePath Z fs (optsOf parseables tst cst) file with
  | ok docs =>
    left
    obtain ⟨a, ha, hp'⟩ := C43_printed hp
    obtain ⟨t, e, hj, hu⟩ := hp' pretty
    rw [e]
    exact ⟨docs, a, (parsePath_iff Z fs hn' file _).mp hp, rfl, ha, hj, hu⟩
  | error e =>
    right
    rw [C43_error pretty hp]
    exact ⟨e, (parsePath_iff Z fs hn' file _).mp hp, rfl, rfl⟩

/-- **C74** The whole program from its source text, on any command line and any files; no model of the code is mentioned.
Either the line is of the grammar of Spec/Cli.lean; then what is written is one text per file, in the order named, each of
them JSON with exactly one reading, which says the entries prescribed for that file (Spec/Result.lean), and either this goes
through all the files and `main` returns `None`, or it stops at the first file for which an exception is prescribed, which
leaves `main`.  Or the line is not of the grammar: nothing is written and `argparse` exits. -/
theorem C74_program (hfs : LibFiles fs) (n : Nat) : ∃ r w',
    ((program Z fs args).at (n + 7)).call py!"atoparser.reader" py!"main" [] [] W.empty = (r, w') ∧
    ((∃ files es ns, Line args.U args.argv files es ∧ Settings files es ns ∧ ∃ texts : List PyStr,
      w'.out = texts.flatten ∧ texts.length ≤ files.length ∧
      (∀ (i : Nat) f t, files[i]? = some f → texts[i]? = some t → ∃ docs a,
        PathPrescribed Z fs (optsOf ns.parseables ns.showTstats ns.showCstats) f (.ok docs) ∧ Says (.list docs) a ∧
        JsonText true t a ∧ ∀ b, JsonText true t b → b = a) ∧
      ((r = .ok .none ∧ texts.length = files.length) ∨
       ∃ f e, files[texts.length]? = some f ∧ r = .error (embExc e) ∧
        PathPrescribed Z fs (optsOf ns.parseables ns.showTstats ns.showCstats) f (.error e))) ∨
    ((¬ ∃ files es, Line args.U args.argv files es) ∧ w'.out = [] ∧ ∃ e, r = .error (.exit e))) := by
  obtain ⟨r, w', h1, h2, h3⟩ := C70_program Z fs args hfs n
  refine ⟨r, w', h1, ?_⟩
  rcases C61_program args.U Z fs args.argv with ⟨files, es, ns, hl, hs, texts, t1, t2, t3, t4⟩ | ⟨a, b, e, c⟩
  · left
    refine ⟨files, es, ns, hl, hs, texts, h2.trans t1, t2, t3, ?_⟩
    rcases t4 with ⟨d, t4⟩ | ⟨f, e, f1, d, f2⟩
    · rw [d] at h3
      refine .inl ⟨?_, t4⟩
      rcases r with x | v
      · exact h3.elim
      · cases v <;> first | rfl | exact h3.elim
    · rw [d] at h3
      refine .inr ⟨f, e, f1, ?_, f2⟩
      rcases r with x | v
      · cases h3; rfl
      · cases v <;> exact h3.elim
  · right
    rw [c] at h3
    refine ⟨a, h2.trans b, e, ?_⟩
    rcases r with x | v
    · cases h3; rfl
    · cases v <;> exact h3.elim

/-- **C74** A log of any supported version that was cut anywhere after its header (or not at all), read with the functions
executed from their text: `get_header`, then `next()` again and again on `generate_statistics(raw_file, header, ...)`.  The
tuples are exactly those of the samples that are complete, in order, and converted or read attribute by attribute they
show the bytes that were written;
then the iteration ends - with `zlib.error` exactly when that is asked for and a non-zero byte of the length of the
interrupted sample is left. -/
theorem C74_cut_log {r : Row} (hr : r ∈ table) {hb : Bytes} (H : ValidHeader r hb) {ws : List WSample} (hv : ∀ w ∈ ws, w.Valid Z r)
    (cut : Nat) (n : Nat) (rot : Bool) (max : Int) (hmax : (ws.length : Int) < max) {s : Stream}
    (hs : s.rest = hb ++ (body r ws).take cut) (plain : s.short = none) :
    ∃ i w1 B g, ((program Z fs args).at (n + 5)).call py!"atoparser" py!"get_header" [.file] [] (opened s) = (.ok (.hdr i), w1) ∧
      layoutOf r.version = some B ∧
      ((program Z fs args).at (n + 5)).call py!"atoparser" py!"generate_statistics" [.file, .hdr i, .bool rot, .int max] [] w1 = (.ok g, w1) ∧
      ∀ N, let run := driven (List.replicate N (Obj.Op.next 0)) [((program Z fs args).at (n + 5)).gen g] w1
        run.length = N ∧ ∀ k j o w2, run[k]? = some (j, o, w2) →
          (∀ f, (completeWithin r ws cut)[k]? = some f → ∃ x, o = .yield x ∧ ∀ m j' o' w3, k ≤ m → run[m]? = some (j', o', w3) →
            TupleShows ((program Z fs args).at (n + 5)) w3 B f x) ∧
          (k = (completeWithin r ws cut).length →
            (rot = true ∧ (∃ p, 16 ≤ p ∧ p < 20 ∧ u8 (interrupted r ws cut) p ≠ 0) → o = .raise (.sys .zlibError)) ∧
            (¬ (rot = true ∧ ∃ p, 16 ≤ p ∧ p < 20 ∧ u8 (interrupted r ws cut) p ≠ 0) → o = .stop)) ∧
          ((completeWithin r ws cut).length < k → o = .stop) ∧
          Displays ((program Z fs args).at (n + 5)) w2 (.hdr i) B.header hb := by
  have hl : LibFile s := by intro e he; rw [plain] at he; cases he
  obtain ⟨u1, u2, hA, u4⟩ := valid_accepts hr H
  have hd480 : first480 s.rest = hb := by
    rw [hs]
    unfold first480
    rw [List.take_append_of_le_length (by rw [H.length]), ← H.length, List.take_length]
    simp [H.length]
  have hAs : Accepts (first480 s.rest) := by rw [hd480]; exact hA
  obtain ⟨c, hc, y1⟩ := C02_cut_yields_complete_samples hr H hv cut rot max hmax hs plain
  obtain ⟨y2, y3⟩ := C03_truncation_reported_iff hr H hv cut rot max hmax hs plain
  have hmem : ∀ f ∈ completeWithin r ws cut, f ∈ ws := fun f hf => (completeWithin_prefix r ws cut).subset hf
  obtain ⟨i, w1, B, g, a1, a2, a3, a4⟩ := with_header Z fs args n s hl (.inl plain) hAs rot max (c := c) (by rw [hd480, u1]; exact hc)
    (fun f hf => by rw [hd480, u1]; exact sized_valid (hv f (hmem f hf))) y1 rfl
  rw [hd480, u1] at a2
  refine ⟨i, w1, B, g, a1, a2, a3, fun N => ⟨(a4 N).1, fun k j o w2 hk => ?_⟩⟩
  obtain ⟨b1, b2, b3, b4⟩ := (a4 N).2 k j o w2 hk
  rw [hd480] at b4
  refine ⟨b1, fun h => ?_, b3, b4⟩
  have b2 := b2 h
  refine ⟨fun hq => ?_, fun hq => ?_⟩
  · rw [b2, y2.mpr hq]; rfl
  · rcases y3 with y3 | y3
    · exact absurd (y2.mp y3) hq
    · rw [b2, y3]; rfl
end

/-! ## Concrete cases -/

/-- Every version: a log of three samples cut inside the third.  The header converts to its literal layout, two tuples come,
the third `next()` is the end. -/
example (r : Row) (hr : r ∈ table) (fs : FileSystem) (args : CommandLine) (cut : Nat) :
    ∃ i w1 B g, ((program toyZ fs args).at 5).call py!"atoparser" py!"get_header" [.file] []
        (opened { data := toyHeader r ++ (body r (toyLog r)).take cut }) = (.ok (.hdr i), w1) ∧ layoutOf r.version = some B ∧
      ((program toyZ fs args).at 5).call py!"atoparser" py!"generate_statistics" [.file, .hdr i, .bool false, .int 10] [] w1 = (.ok g, w1) ∧
      ∀ o j w2, (driven (List.replicate 4 (Obj.Op.next 0)) [((program toyZ fs args).at 5).gen g] w1)[(completeWithin r (toyLog r) cut).length]?
        = some (j, o, w2) → o = .stop ∧ Displays ((program toyZ fs args).at 5) w2 (.hdr i) B.header (toyHeader r) := by
  obtain ⟨i, w1, B, g, h1, h2, h3, h4⟩ := C74_cut_log toyZ fs args hr (toyHeader_valid r hr) (toyLog_valid r hr) cut 0 false 10
    (by simp [toyLog]) (s := { data := toyHeader r ++ (body r (toyLog r)).take cut }) (by simp [Stream.rest]) rfl
  refine ⟨i, w1, B, g, h1, h2, h3, fun o j w2 h => ?_⟩
  obtain ⟨-, a, -, b⟩ := (h4 4).2 _ _ _ _ h
  exact ⟨(a rfl).2 (by simp), b⟩

/-- The hypotheses of `C74_iteration` are met by the whole log of every version. -/
example (r : Row) (hr : r ∈ table) : Accepts (first480 (Stream.rest { data := toyHeader r ++ body r (toyLog r) })) ∧
    usedRow (first480 (Stream.rest { data := toyHeader r ++ body r (toyLog r) })) = r := by
  have H := toyHeader_valid r hr
  have : first480 (Stream.rest { data := toyHeader r ++ body r (toyLog r) }) = toyHeader r := by
    unfold first480 Stream.rest
    rw [List.drop_zero, List.take_append_of_le_length (by rw [H.length]), ← H.length, List.take_length]
    simp [H.length]
  rw [this]
  exact ⟨(valid_accepts hr H).2.2.1, (valid_accepts hr H).1⟩

/-- A file that is not a log: `get_header` and the first `next()` raise the same `ValueError`. -/
example (Z : Zlib) (fs : FileSystem) (args : CommandLine) : ∃ g t w1 rest,
    ((program Z fs args).at 5).call py!"atoparser" py!"get_header" [.file] [] (opened { data := [1, 2, 3] }) = (.error (.value t), w1) ∧
    ((program Z fs args).at 5).call py!"atoparser" py!"generate_statistics" [.file, .none, .bool true, .int 5] [] (opened { data := [1, 2, 3] }) =
      (.ok g, opened { data := [1, 2, 3] }) ∧
    (driven (List.replicate 2 (Obj.Op.next 0)) [((program Z fs args).at 5).gen g] (opened { data := [1, 2, 3] })).map (·.2.1) =
      [.raise (.value t), rest] ∧ rest = .stop := by
  have ref : ∃ t, RefusedWith (first480 (Stream.rest { data := [1, 2, 3] })) (.valueError (.badMagic t)) :=
    ⟨_, (refused_iff (s := { data := [1, 2, 3] }) (.inl rfl) _).mp rfl⟩
  obtain ⟨t, ht⟩ := ref
  obtain ⟨r, w1, a1, -, a2⟩ := C74_header Z fs args 0 { data := [1, 2, 3] } nofun
  have a2 := (a2 (.inl rfl)).1 _ ht
  subst a2
  obtain ⟨g, b1, b2⟩ := C74_no_header Z fs args 0 { data := [1, 2, 3] } nofun true 5
  obtain ⟨c1, -, c2⟩ := b2 2
  have c2 := c2 _ (.inr ⟨.inl rfl, ht⟩)
  refine ⟨g, t, w1, .stop, a1, b1, ?_, rfl⟩
  revert c1 c2
  generalize driven _ _ _ = run
  intro c1 c2
  match run, c1 with
  | [(j, o, w), (j', o', w')], _ =>
    rw [List.map_cons, List.map_cons, List.map_nil, (c2 0 _ _ _ rfl).1 rfl, (c2 1 _ _ _ rfl).2 (by omega)]
    rfl

end Atop.Src
