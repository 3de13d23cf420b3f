import Verif.Proofs.ByHand
/-!
# C78: reading samples by hand

The caller's program is in Spec/ByHand.lean; everything it calls is executed from its source text.
-/

namespace Atop.Src
open Spec
set_option maxRecDepth 20000

section
variable (Z : Zlib) (fs : FileSystem) (args : CommandLine)

theorem header_class {h : Header} {s0 s1 : Stream} (hg : getHeader true s0 = (.ok h, s1)) : h.cls ∈ versions := by
  rw [(getHeader_ok hg).1]
  exact classFor_mem _

/-- **C78** Reading a sample by hand, in any state, with a header that `get_header` returned, gives what the first
`next()` of `generate_statistics(raw_file, header)` gives there: the same objects, `None` for the end, or the same exception; and
everything - memory, header objects, position in the file, what was printed - is left the same. -/
theorem C78_as_next (n : Nat) (out : PyStr) {w : World} (hl : LibFile w.file) (W : w.WF) {i : Nat} {h : Header} {s0 s1 : Stream}
    (hi : w.header i = some h) (hg : getHeader true s0 = (.ok h, s1)) : ∃ g,
    (∀ s, ((program Z fs args).at (n + 5)).call py!"atoparser" py!"generate_statistics" [.file, .hdr i] [] s = (.ok g, s)) ∧
    handOut (byHand ((program Z fs args).at (n + 5)) i (emb out w)).1 = ((((program Z fs args).at (n + 5)).gen g).next (emb out w)).1 ∧
    (byHand ((program Z fs args).at (n + 5)) i (emb out w)).2 = ((((program Z fs args).at (n + 5)).gen g).next (emb out w)).2.2 := by
  have hc := header_class hg
  obtain ⟨gen, -, -, k3, k4⟩ := C68_generate_statistics Z fs args n out w hl [(true, some i, 86400)] (by
    intro p hp j hj
    rw [List.mem_singleton.mp hp] at hj
    cases hj
    exact ⟨h, hi, hc⟩) [.next 0]
  refine ⟨_, k3 i, ?_⟩
  obtain ⟨a1, a2⟩ := hand_next (Z := Z) (fs := fs) (args := args) (n := n + 2) (out := out) hl (header_at W hi) (returned_cache hg) hc
    (max := 86400) (by omega)
  have k4 : [(0, ((((program Z fs args).at (n + 5)).gen (gen (true, some i, 86400))).next (emb out w)).1,
      ((((program Z fs args).at (n + 5)).gen (gen (true, some i, 86400))).next (emb out w)).2.2)] =
      [(0, outVal ((Obj.Gen.start (some i) 86400).next Z true w).1, emb out ((Obj.Gen.start (some i) 86400).next Z true w).2.2)] := k4
  injection k4 with k4 _
  injection k4 with _ k4
  injection k4 with k4 k5
  rw [k4, k5]
  exact ⟨a1, a2⟩

/-- **C78** A caller that reads samples by hand, uses any number of iterators over the same file (`next()`, `throw()`,
`close()`) and writes to the memory of any object, in any order: reading by hand is stepping an iterator of its own that
may give one sample.  So what holds for iterators sharing a file (C48, C65, C68) holds for reading by hand too. -/
theorem C78_iterators (n : Nat) (out : PyStr) {w : World} (hl : LibFile w.file) (W : w.WF) {c : Calls} (H : c.Held w)
    {i : Nat} {h : Header} {s0 s1 : Stream} (hi : w.header i = some h) (hg : getHeader true s0 = (.ok h, s1)) (ts : List Turn)
    (hu : ∀ j op, .use j op ∈ ts → j < c.length) :
    ∃ gen : Bool × Option Nat × Int → Val,
      (∀ p s, ((program Z fs args).at (n + 5)).call py!"atoparser" py!"generate_statistics"
        [.file, headerArg p.2.1, .bool p.1, .int p.2.2] [] s = (.ok (gen p), s)) ∧
      turns ((program Z fs args).at (n + 5)) i ts (c.map fun p => ((program Z fs args).at (n + 5)).gen (gen p)) (emb out w) =
        (driven (plan c.length ts) ((c ++ List.replicate (hands ts) (true, some i, 1)).map fun p => ((program Z fs args).at (n + 5)).gen (gen p))
          (emb out w)).map Prod.snd := by
  have H' : Calls.Held w (c ++ List.replicate (hands ts) (true, some i, 1)) := by
    intro p hp j hj
    rcases List.mem_append.mp hp with hp | hp
    · exact H p hp j hj
    · rw [List.eq_of_mem_replicate hp] at hj
      cases hj
      exact ⟨h, s0, s1, hi, hg⟩
  have hh : ∀ p ∈ c ++ List.replicate (hands ts) (true, some i, 1), ∀ j, p.2.1 = some j → ∃ h, w.header j = some h ∧ h.cls ∈ versions := by
    intro p hp j hj
    obtain ⟨h, s0, s1, h1, h2⟩ := H' p hp j hj
    exact ⟨h, h1, header_class h2⟩
  have hobj : Calls.objects (c ++ List.replicate (hands ts) (true, some i, 1)) =
      c.objects ++ ([] ++ List.replicate (hands ts) (true, .start (some i) 1)) := by
    unfold Calls.objects
    rw [List.map_append, List.map_replicate, List.nil_append]
  refine ⟨genOf, fun p s => ?_, ?_⟩
  · exact gen_call n p s
  · rw [driven_eq (Z := Z) (fs := fs) (args := args) (out := out) _ _ _ w (all_suspended (n := n) hl _ hh), List.map_map, hobj]
    have A := all_suspended (Z := Z) (fs := fs) (args := args) (n := n) hl c (fun p hp => hh p (List.mem_append_left _ hp))
    have S : Sound w (c.objects ++ ([] ++ List.replicate (hands ts) (true, .start (some i) 1))) := by
      rw [← hobj]
      exact (held_alike W H').sound
    have := turns_eq (Z := Z) (fs := fs) (args := args) (out := out) (n := n + 2) (i := i) ts c.objects _ [] (hands ts) w A
      (by simpa [Calls.objects] using hu) (Nat.le_refl _) S ⟨hl, h.cls, header_class hg, sees hl hi⟩
    rw [show (Calls.objects c).length + ([] : List (Bool × Obj.Gen)).length = c.length by simp [Calls.objects]] at this
    exact this

/-- **C78** Any file whose header is accepted: `get_header`, then reading by hand again and again.  The reference decoder
of Spec/Decode.lean says what the file holds.  The samples found come one after the other; converted or read attribute by
attribute, then or at any later moment, their objects show the bytes of the sample by the literal layouts of the version.
After the last one comes `None`, or the exception of the trouble found there. -/
theorem C78_any_file (n : Nat) (s : Stream) (hl : LibFile s) (enough : s.short = none ∨ 480 ≤ s.rest.length)
    (hA : Accepts (first480 s.rest)) (N : Nat) {found : List Found} {t : Option Trouble}
    (hd : decodeLog Z (usedRow (first480 s.rest)) (readsCGroups (first480 s.rest)) s.short.isNone N (s.rest.drop 480) = (found, t)) :
    ∃ i w1 B, ((program Z fs args).at (n + 5)).call py!"atoparser" py!"get_header" [.file] [] (opened s) = (.ok (.hdr i), w1) ∧
      layoutOf (usedRow (first480 s.rest)).version = some B ∧
      let run := turns ((program Z fs args).at (n + 5)) i (List.replicate N .hand) [] w1
      run.length = N ∧ ∀ k o w2, run[k]? = some (o, w2) →
        (∀ f, found[k]? = some f → ∃ x, o = .yield x ∧ ∀ m o' w3, k ≤ m → run[m]? = some (o', w3) →
          TupleShows ((program Z fs args).at (n + 5)) w3 B f.written x) ∧
        (k = found.length → o = lastOut s.short true t) := by
  obtain ⟨c, hc, hx⟩ := C08_header_result s enough hA
  obtain ⟨d1, d2⟩ := C53_decoder Z hx true N { s with pos := s.pos + min 480 s.rest.length } (fs := found) (t := t) (by
    have e1 : Stream.rest { s with pos := s.pos + min 480 s.rest.length } = s.rest.drop 480 := Stream.skip_rest s 480
    rw [e1]; exact hd)
  have hcall := (C67_get_header Z fs args (n + 1) [] { file := s } hl true).1
  obtain ⟨g1, g2, -, g4⟩ := C65_get_header { file := s } nofun true
  dsimp only at g1 g2 g4
  generalize Obj.getHeader true { file := s } = R at hcall g1 g2 g4
  have hcls := header_class hx
  have hcache := returned_cache hx
  rw [hx] at g1 g4
  obtain ⟨e' | i, w⟩ := R
  · exact g4.elim
  obtain ⟨k1, -⟩ := g4
  dsimp only at g1 g2 k1
  obtain ⟨c', B, hc', hB, -⟩ := layout_facts (usedRow_mem (first480 s.rest))
  have hat := header_at g2 k1
  have hlw : LibFile w.file := by intro e he; rw [g1] at he; exact hl e he
  refine ⟨i, emb [] w, B, hcall, hB, ?_⟩
  dsimp only
  refine ⟨turns_hands_length _ N _, ?_⟩
  obtain ⟨v, hv⟩ := Option.isSome_iff_exists.mp hcache
  rw [← g1] at d1 d2
  have hsh : w.file.short = s.short := by rw [g1]
  rw [hsh] at d2
  have G : GNow w (.start (some i) (N : Int)) (.start (some _) (N : Int)) := ⟨rfl, hat, hcache⟩
  rw [show found.map (fun f => presented c f.written) = (found.map Found.written).map (presented c) by rw [List.map_map]; rfl] at d1
  have F := found_sized hA hd
  -- by induction on `k`: what comes before is samples
  have main : ∀ k o w2, (turns ((program Z fs args).at (n + 5)) i (List.replicate N .hand) [] (emb [] w))[k]? = some (o, w2) → k ≤ found.length →
      ∃ r, (oneRun Z true (List.replicate N .next) (.start (some i) (N : Int)) w)[k]? = some r ∧ o = outVal r.1 ∧ w2 = emb [] r.2 := by
    intro k
    induction k using Nat.strongRecOn with
    | _ k ih =>
      intro o w2 hk hkl
      have key := hands_oneRun (Z := Z) (fs := fs) (args := args) (n := n + 2) (out := []) (i := i) N _ w N _ hat hv hcls hlw (Nat.le_refl _) (.inl rfl) k (by
        intro j hj o' w' ho
        obtain ⟨r, hr, rfl, -⟩ := ih j hj o' w' ho (by omega)
        obtain ⟨-, b1, -⟩ := run_facts G d1 rfl N j hr
        have hjl : j < (found.map Found.written).length := by rw [List.length_map]; omega
        obtain ⟨x, hx, -⟩ := b1 _ (List.getElem?_eq_getElem hjl)
        rw [hx]; rfl)
      rw [hk] at key
      cases hr : (oneRun Z true (List.replicate N .next) (.start (some i) (N : Int)) w)[k]? with
      | none => rw [hr] at key; cases key
      | some r => rw [hr] at key; cases key; exact ⟨r, rfl, rfl, rfl⟩
  intro k o w2 hk
  refine ⟨?_, ?_⟩
  · intro f hf
    have hkl : k < found.length := (List.getElem?_eq_some_iff.mp hf).1
    obtain ⟨r, hr, rfl, rfl⟩ := main k o w2 hk (by omega)
    obtain ⟨e1, b1, -⟩ := run_facts G d1 rfl N k hr
    obtain ⟨x, x1, x2, x3⟩ := b1 f.written (by rw [List.getElem?_map, hf]; rfl)
    refine ⟨tupleVal x, by rw [x1]; rfl, fun m o' w3 hm h3 => ?_⟩
    obtain ⟨w', f1, -, f3⟩ := hands_states (Z := Z) (fs := fs) (args := args) (n := n + 2) (out := []) (i := i) N w _ hat hv hcls hlw k _ _ hk
    have la : LibFile r.2.file := by rw [show r.2.file = w'.file from congrArg W.file f1]; exact f3
    obtain ⟨w'', rfl, e3⟩ := hands_later (Z := Z) (fs := fs) (args := args) (n := n + 2) (out := []) (i := i) N w _ hv hcls k hk la (hat.ext e1) m hm h3
    exact tuple_shows Z fs args n [] (usedRow_mem _) hc hB (F _ (List.mem_map_of_mem (List.mem_of_getElem? hf)))
      (by rw [ext_tuple e3 x2]; exact x3)
  · intro hkl
    obtain ⟨r, hr, rfl, rfl⟩ := main k o w2 hk (by omega)
    obtain ⟨-, -, b2⟩ := run_facts G d1 rfl N k hr
    exact (b2 (by rw [List.length_map]; exact hkl)).trans (lastOut_eq d2)

/-- **C78** A well-formed log: a caller that, in any order, reads samples by hand and steps any number of iterators with
any bounds over the same file.  Together they give the samples of the log one after the other, none lost, repeated or
mixed up: what comes after `m` samples is sample `m`, and its objects show the bytes that were written, then and after
everything done later.  Nothing raises.  Reading by hand gives `None` only when the log is exhausted; an iterator ends only then
or at its bound. -/
theorem C78_log (n : Nat) {r : Row} (hr : r ∈ table) {hb : Bytes} (H : ValidHeader r hb) {ws : List WSample}
    (V : ∀ f ∈ ws, f.Valid Z r) {s : Stream} (hs : s.rest = hb ++ body r ws) (plain : s.short = none) :
    ∃ i w1 B, ∃ gen : Bool → Int → Val,
      ((program Z fs args).at (n + 5)).call py!"atoparser" py!"get_header" [.file] [] (opened s) = (.ok (.hdr i), w1) ∧
      layoutOf r.version = some B ∧
      (∀ rot max w, ((program Z fs args).at (n + 5)).call py!"atoparser" py!"generate_statistics" [.file, .hdr i, .bool rot, .int max] [] w =
        (.ok (gen rot max), w)) ∧
      ∀ (its : List (Bool × Int)) (ts : List Turn), OnlyReads its.length ts →
        let run := turns ((program Z fs args).at (n + 5)) i ts (its.map fun p => ((program Z fs args).at (n + 5)).gen (gen p.1 p.2)) w1
        run.length = ts.length ∧ ∀ k o w2, run[k]? = some (o, w2) →
          (∃ f x, ws[samplesIn (run.take k)]? = some f ∧ o = .yield x ∧
            ∀ m o' w3, k ≤ m → run[m]? = some (o', w3) → TupleShows ((program Z fs args).at (n + 5)) w3 B f x) ∨
          (o = .stop ∧ (samplesIn (run.take k) = ws.length ∨
            ∃ j p, ts[k]? = some (.use j .next) ∧ its[j]? = some p ∧ samplesFrom j ((ts.zip run).take k) = p.2.toNat)) := by
  have hl : LibFile s := by intro e he; rw [plain] at he; cases he
  obtain ⟨h, -, hcl, -, -, -, hx⟩ := generate_valid hr H Z false 0 hs
  have hcall := (C67_get_header Z fs args (n + 1) [] { file := s } hl true).1
  obtain ⟨g1, g2, -, g4⟩ := C65_get_header { file := s } nofun true
  dsimp only at g1 g2 g4
  generalize Obj.getHeader true { file := s } = R at hcall g1 g2 g4
  rw [hx] at g1 g4
  obtain ⟨e' | i, w⟩ := R
  · exact g4.elim
  obtain ⟨k1, -⟩ := g4
  dsimp only at g1 g2 k1
  obtain ⟨c', B, hc', hB, -⟩ := layout_facts hr
  have hlw : LibFile w.file := by intro e he; rw [g1] at he; exact hl e he
  refine ⟨i, emb [] w, B, fun rot max => genOf (rot, some i, max), hcall, hB, fun rot max w => gen_call n (rot, some i, max) w, ?_⟩
  intro its ts only
  dsimp only
  -- the iterators
  let c : Calls := its.map fun p => (p.1, some i, p.2)
  let all : Calls := c ++ List.replicate (hands ts) (true, some i, 1)
  have hclen : c.length = its.length := List.length_map ..
  have held : all.Held w := by
    intro p hp j hj
    have : p.2.1 = some i := by
      rcases List.mem_append.mp hp with hp | hp
      · obtain ⟨q, -, rfl⟩ := List.mem_map.mp hp; rfl
      · rw [List.eq_of_mem_replicate hp]
    rw [this] at hj
    cases hj
    exact ⟨h, _, _, k1, hx⟩
  have hobj : all.objects = c.objects ++ ([] ++ List.replicate (hands ts) (true, .start (some i) 1)) := by
    show Calls.objects (c ++ _) = _
    unfold Calls.objects
    rw [List.map_append, List.map_replicate, List.nil_append]
  have S : Sound w all.objects := (held_alike g2 held).sound
  have A := all_suspended (Z := Z) (fs := fs) (args := args) (n := n) hlw c (by
    intro p hp j hj
    obtain ⟨q, -, rfl⟩ := List.mem_map.mp hp
    cases hj
    exact ⟨h, k1, header_class hx⟩)
  have hrun : turns ((program Z fs args).at (n + 5)) i ts (its.map fun p => ((program Z fs args).at (n + 5)).gen (genOf (p.1, some i, p.2))) (emb [] w) =
      (Obj.history Z (plan its.length ts) all.objects w).1.map fun r => (outVal r.2.1, emb [] r.2.2) := by
    have := turns_eq (Z := Z) (fs := fs) (args := args) (out := []) (n := n + 2) (i := i) ts c.objects _ [] (hands ts) w A
      (by
        intro j op hm
        rcases only _ hm with hm | ⟨j', hj', hm⟩
        · cases hm
        · cases hm
          rw [show (Calls.objects c).length = its.length by simp [Calls.objects, c]]
          exact hj') (Nat.le_refl _) (by rw [← hobj]; exact S) ⟨hlw, h.cls, header_class hx, sees hlw k1⟩
    rw [show (Calls.objects c).length + ([] : List (Bool × Obj.Gen)).length = its.length by simp [Calls.objects, c], ← hobj] at this
    rw [← this, List.map_map]
    rfl
  -- on values
  have hvals : all.values w = (its ++ List.replicate (hands ts) (true, (1 : Int))).map fun (p : Bool × Int) => (p.1, Gen.start (some h) p.2) := by
    show Calls.values w (its.map (fun p => (p.1, some i, p.2)) ++ _) = _
    unfold Calls.values
    rw [List.map_append, List.map_append, List.map_map, List.map_replicate, List.map_replicate]
    congr 1
    · refine List.map_congr_left fun p _ => ?_
      show (p.1, Gen.start (w.header i) p.2) = _
      rw [k1]
    · show List.replicate _ (true, Gen.start (w.header i) 1) = _
      rw [k1]
  have hist := (C65_history Z g2 held (plan its.length ts) (fun blk off bytes hm => absurd hm (plan_no_write _ ts only _ _ _))).1
  rw [steps_plan _ ts only, used_next, hvals, g1] at hist
  have hlt : ∀ j ∈ schedOf its.length ts, j < ((its ++ List.replicate (hands ts) (true, (1 : Int))).map fun (p : Bool × Int) => (p.1, Gen.start (some h) p.2)).length := by
    intro j hj
    have := sched_lt its.length ts only (Nat.le_refl _) j hj
    simpa using this
  have hfst := interleave_fst (Z := Z) _ _ (s.adv 480) hlt
  obtain ⟨cc, K, hcc, hK, q1, -, q3⟩ := C48_interleaving (Z := Z) hr H V hs plain hx (its ++ List.replicate (hands ts) (true, 1)) (schedOf its.length ts)
  have hext := history_ext (Z := Z) (plan its.length ts) all.objects w S (plan_no_write _ ts only)
  rw [← hist] at hfst q1 q3
  rw [hrun]
  generalize (Obj.history Z (plan its.length ts) all.objects w).1 = L at hfst q1 q3 hext
  have hfst : L.map Prod.fst = schedOf its.length ts := by rw [← hfst, List.map_map]; rfl
  have hlen : L.length = ts.length := by
    have := congrArg List.length hfst
    rw [List.length_map, sched_length _ ts only] at this
    exact this
  refine ⟨by rw [List.length_map]; exact hlen, ?_⟩
  intro k o w2 hk
  rw [List.getElem?_map] at hk
  cases hLk : L[k]? with
  | none => rw [hLk] at hk; cases hk
  | some e =>
  obtain ⟨idx, oo, we⟩ := e
  rw [hLk] at hk
  cases hk
  have hcount : samplesIn ((L.map fun r => (outVal r.2.1, emb [] r.2.2)).take k) =
      (samplesGot ((L.map fun r => (r.1, r.2.2.out r.2.1)).take k)).length := by
    rw [← List.map_take, ← List.map_take]
    exact samplesIn_eq _
  have hVk : (L.map fun r => (r.1, r.2.2.out r.2.1))[k]? = some (idx, we.out oo) := by
    rw [List.getElem?_map, hLk]; rfl
  have hsk : (schedOf its.length ts)[k]? = some idx := by
    rw [← hfst, List.getElem?_map, hLk]; rfl
  have hkts : k < ts.length := by rw [← hlen]; exact (List.getElem?_eq_some_iff.mp hLk).1
  rw [hcount]
  obtain ⟨p, p1, -, p3⟩ := q3 k idx _ hVk
  have stop : we.out oo = .stop → oo = .stop := by cases oo <;> intro h <;> first | rfl | cases h
  have ended : (we.out oo).sample = none → outVal oo = .stop ∧ ((samplesGot ((L.map fun r => (r.1, r.2.2.out r.2.1)).take k)).length = ws.length ∨
      ∃ j p, ts[k]? = some (.use j .next) ∧ its[j]? = some p ∧
        samplesFrom j ((ts.zip (L.map fun r => (outVal r.2.1, emb [] r.2.2))).take k) = p.2.toNat) := by
    intro hn
    obtain ⟨z1, z2⟩ := p3 hn
    rw [stop z1]
    refine ⟨rfl, ?_⟩
    rcases z2 with z2 | z2
    · rcases only _ (List.getElem_mem hkts) with ht | ⟨j, hj, ht⟩
      · -- a hand: its iterator is new
        have ht : ts[k]? = some .hand := by rw [List.getElem?_eq_getElem hkts, ht]
        obtain ⟨idx', y1, y2, -, y4⟩ := sched_hand its.length ts only (Nat.le_refl _) k ht
        obtain rfl : idx = idx' := by rw [hsk] at y1; exact Option.some.inj y1
        have : p = (true, 1) := by
          rw [List.getElem?_append_right y2] at p1
          exact List.eq_of_mem_replicate (List.mem_of_getElem? p1)
        subst this
        rw [samplesBy_none _ (by rw [← List.map_take, List.map_map]; rw [← hfst, ← List.map_take] at y4; exact y4)] at z2
        cases z2
      · have ht : ts[k]? = some (.use j .next) := by rw [List.getElem?_eq_getElem hkts, ht]
        obtain rfl : idx = j := by
          have := sched_use its.length ts only k j ht
          rw [hsk] at this; exact Option.some.inj this
        rw [List.getElem?_append_left hj] at p1
        refine .inr ⟨idx, p, ht, p1, ?_⟩
        rw [samplesFrom_eq hj ts its.length L only (Nat.le_refl _) hfst, ← z2, List.map_take]
    · exact .inl z2
  cases hoo : oo with
  | stop => subst hoo; exact .inr (ended rfl)
  | raise e => subst hoo; exact .inr (ended rfl)
  | yield x =>
    subst hoo
    left
    have hgot := samplesGot_get _ k hVk
    rw [q1, List.getElem?_map] at hgot
    cases hf : (ws.take K)[(samplesGot ((L.map fun r => (r.1, r.2.2.out r.2.1)).take k)).length]? with
    | none => rw [hf] at hgot; cases hgot
    | some f =>
      rw [hf] at hgot
      injection hgot with hgot
      have hf' : ws[(samplesGot ((L.map fun r => (r.1, r.2.2.out r.2.1)).take k)).length]? = some f := by
        rw [List.getElem?_take] at hf
        split at hf
        · exact hf
        · cases hf
      refine ⟨f, tupleVal x, hf', rfl, fun m o' w3 hm h3 => ?_⟩
      rw [List.getElem?_map] at h3
      cases hLm : L[m]? with
      | none => rw [hLm] at h3; cases h3
      | some e' =>
        rw [hLm] at h3
        cases h3
        obtain ⟨-, b2, b3⟩ := hext k _ hLk
        exact tuple_shows Z fs args n [] hr hcc hB (sized_valid (V f (List.mem_of_getElem? hf')))
          (by rw [ext_tuple (b3 m _ hm hLm) b2]; exact hgot.symm)

end

/-! ## A concrete case -/

/-- Every version: a log of three samples, read by hand, then with an iterator, then twice by hand.  The first thing read shows the first
sample, then and after all that follows; every step gives a sample or finds the log exhausted. -/
example (r : Row) (hr : r ∈ table) (fs : FileSystem) (args : CommandLine) :
    ∃ i w1 B g, ((program toyZ fs args).at 5).call py!"atoparser" py!"get_header" [.file] []
        (opened { data := toyHeader r ++ body r (toyLog r) }) = (.ok (.hdr i), w1) ∧ layoutOf r.version = some B ∧
      ((program toyZ fs args).at 5).call py!"atoparser" py!"generate_statistics" [.file, .hdr i, .bool true, .int 9] [] w1 = (.ok g, w1) ∧
      let run := turns ((program toyZ fs args).at 5) i [.hand, .use 0 .next, .hand, .hand] [((program toyZ fs args).at 5).gen g] w1
      run.length = 4 ∧ (∀ o w2, run[0]? = some (o, w2) → ∃ f x, (toyLog r)[0]? = some f ∧ o = .yield x ∧
        ∀ (m : Nat) o' w3, run[m]? = some (o', w3) → TupleShows ((program toyZ fs args).at 5) w3 B f x) := by
  obtain ⟨i, w1, B, gen, h1, h2, h3, h4⟩ := C78_log toyZ fs args 0 hr (toyHeader_valid r hr) (toyLog_valid r hr)
    (s := { data := toyHeader r ++ body r (toyLog r) }) (by simp [Stream.rest]) rfl
  obtain ⟨a1, a2⟩ := h4 [(true, 9)] [.hand, .use 0 .next, .hand, .hand] (by
    intro t ht
    simp only [List.mem_cons, List.not_mem_nil, or_false] at ht
    rcases ht with rfl | rfl | rfl | rfl
    · exact .inl rfl
    · exact .inr ⟨0, by decide, rfl⟩
    · exact .inl rfl
    · exact .inl rfl)
  refine ⟨i, w1, B, gen true 9, h1, h2, h3 _ _ _, a1, fun o w2 ho => ?_⟩
  rcases a2 0 o w2 ho with ⟨f, x, e1, e2, e3⟩ | ⟨-, e | ⟨j, p, e, -⟩⟩
  · exact ⟨f, x, e1, e2, fun m o' w3 => e3 m o' w3 (Nat.zero_le _)⟩
  · have : (0 : Nat) = (toyLog r).length := e
    simp [toyLog] at this
  · cases e

end Atop.Src
