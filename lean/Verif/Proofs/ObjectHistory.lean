import Verif.Proofs.ObjectSteps
/-!
# Histories of steps and writes
-/

namespace Atop
open Spec

theorem u32_poke {b bytes : Bytes} {off i : Nat} (hl : off + bytes.length ≤ b.length) (h : off + bytes.length ≤ i ∨ i + 4 ≤ off) :
    u32 (b.take off ++ bytes ++ b.drop (off + bytes.length)) i = u32 b i := by
  have key : ∀ j, (off + bytes.length ≤ j ∨ j < off) → u8 (b.take off ++ bytes ++ b.drop (off + bytes.length)) j = u8 b j := by
    intro j hj
    unfold u8
    rw [List.getD_eq_getElem?_getD, List.getD_eq_getElem?_getD]
    congr 2
    rcases hj with hj | hj
    · rw [List.getElem?_append_right (by simp; omega), List.getElem?_drop]
      congr 1
      simp
      omega
    · rw [List.append_assoc, List.getElem?_append_left (by simp; omega), List.getElem?_take_of_lt (by omega)]
  unfold u32 u16
  rw [key i (by omega), key (i + 1) (by omega), key (i + 2) (by omega), key (i + 2 + 1) (by omega)]

theorem poke_headers (w : World) (blk off : Nat) (bytes : Bytes) : (Obj.poke w blk off bytes).headers = w.headers := by
  unfold Obj.poke; split
  · split <;> rfl
  · rfl

theorem poke_file (w : World) (blk off : Nat) (bytes : Bytes) : (Obj.poke w blk off bytes).file = w.file := by
  unfold Obj.poke; split
  · split <;> rfl
  · rfl

theorem poke_len (w : World) (blk off : Nat) (bytes : Bytes) : (Obj.poke w blk off bytes).heap.length = w.heap.length := by
  unfold Obj.poke; split
  · split
    · simp
    · rfl
  · rfl

theorem poke_other (w : World) {blk b : Nat} (off : Nat) (bytes : Bytes) (h : b ≠ blk) :
    (Obj.poke w blk off bytes).heap[b]? = w.heap[b]? := by
  unfold Obj.poke; split
  · split
    · exact List.getElem?_set_ne (Ne.symm h)
    · rfl
  · rfl

theorem HeaderAt.poke {w : World} {i h} (k : HeaderAt w i h) (blk off : Nat) (bytes : Bytes) :
    ∃ h', HeaderAt (Obj.poke w blk off bytes) i h' ∧ h'.cache = h.cache ∧
      ((blk ∈ w.headers.map HObj.blk → Spares off bytes.length) → ∀ h0 v, HLike h h0 v → HLike h' h0 v) := by
  obtain ⟨o, b, e1, e2, e3, e4, e5⟩ := k
  by_cases hob : o.blk = blk
  · subst hob
    have hlt := (List.getElem?_eq_some_iff.mp e4).1
    by_cases hl : off + bytes.length ≤ b.length
    · have hh : (Obj.poke w o.blk off bytes) = { w with heap := w.heap.set o.blk (b.take off ++ bytes ++ b.drop (off + bytes.length)) } := by
        unfold Obj.poke
        rw [e4]
        exact if_pos hl
      refine ⟨⟨h.cls, (b.take off ++ bytes ++ b.drop (off + bytes.length)).take o.cls.size, h.cache⟩,
        ⟨o, _, by rw [hh]; exact e1, e2, e3, by rw [hh]; exact List.getElem?_set_self hlt, rfl⟩, rfl, ?_⟩
      rintro hs h0 v ⟨⟨r, F⟩, c1, c2, c3, c7, c4, c5, c6⟩
      obtain ⟨s1, s2⟩ := hs (List.mem_map.mpr ⟨o, List.mem_of_getElem? e1, rfl⟩)
      have hsz : o.cls.size = 480 := by rw [e2, c1]; exact F.size
      rw [hsz] at e5 ⊢
      rw [e5] at c4 c5 c6
      rw [u32_take _ _ _ (by omega)] at c5
      unfold i32 at c6
      rw [u32_take _ _ _ (by omega)] at c6
      refine ⟨⟨r, F⟩, c1, c2, c3, c7, ?_, ?_, ?_⟩
      · simp at c4 ⊢
        omega
      · rw [u32_take _ _ _ (by omega), u32_poke hl s1]
        exact c5
      · unfold i32
        rw [u32_take _ _ _ (by omega), u32_poke hl s2]
        exact c6
    · have hh : (Obj.poke w o.blk off bytes) = w := by
        unfold Obj.poke
        rw [e4]
        exact if_neg hl
      exact ⟨h, by rw [hh]; exact ⟨o, b, e1, e2, e3, e4, e5⟩, rfl, fun _ _ _ L => L⟩
  · exact ⟨h, ⟨o, b, by rw [poke_headers]; exact e1, e2, e3, by rw [poke_other _ _ _ hob]; exact e4, e5⟩, rfl, fun _ _ _ L => L⟩

theorem GNow.poke {w : World} {g g1} (G : GNow w g g1) (blk off : Nat) (bytes : Bytes) :
    ∃ g2, GNow (Obj.poke w blk off bytes) g g2 ∧
      ((blk ∈ w.headers.map HObj.blk → Spares off bytes.length) → ∀ g0, GLike g1 g0 → GLike g2 g0) := by
  unfold GNow at G
  split at G
  · exact ⟨.done, trivial, fun _ _ L => L⟩
  · exact ⟨_, by rename_i m m'; show GNow _ (.start none m) (.start none m'); exact G, fun _ _ L => L⟩
  · rename_i i max h max'
    obtain ⟨rfl, k, hc⟩ := G
    obtain ⟨h', k', hc', L⟩ := k.poke blk off bytes
    refine ⟨.start (some h') max, ⟨rfl, k', by rw [hc']; exact hc⟩, fun hs g0 G0 => ?_⟩
    unfold GLike at G0
    split at G0
    · contradiction
    · rename_i e; cases e
    · rename_i e; cases e
      obtain ⟨rfl, v, H⟩ := G0
      exact ⟨rfl, v, L hs _ _ H⟩
    · contradiction
    · exact G0.elim
  · rename_i i v n h v' n'
    obtain ⟨rfl, rfl, k, hc⟩ := G
    obtain ⟨h', k', hc', L⟩ := k.poke blk off bytes
    refine ⟨.loop h' v n, ⟨rfl, rfl, k', by rw [hc']; exact hc⟩, fun hs g0 G0 => ?_⟩
    unfold GLike at G0
    split at G0
    · contradiction
    · contradiction
    · contradiction
    · rename_i e; cases e
      obtain ⟨rfl, rfl, u, H⟩ := G0
      exact ⟨rfl, rfl, u, L hs _ _ H⟩
    · exact G0.elim
  · exact G.elim

/-! ## Histories -/

theorem use_rel (Z : Zlib) (rot : Bool) (op : Op) {w : World} {g g'} (G : GNow w g g') :
    StepRel w (g.use Z rot op w) (g'.use Z rot op w.file) := by
  have same : ∀ {o : Obj.Out} {o' : Out}, w.out o = o' → o.blocks = [] → StepRel w (o, .done, w) (o', .done, w.file) := by
    intro o o' h1 h2
    exact ⟨World.Ext.refl w, rfl, h1, trivial, [], w.heap.length, (List.append_nil _).symm, nofun, by
      dsimp only; rw [h2]; exact Within.nil _ _, Nat.le_refl _, Nat.le_refl _⟩
  cases op with
  | next => exact next_rel Z rot G
  | close => exact same rfl rfl
  | throw e =>
    unfold GNow at G
    split at G
    · exact same rfl rfl
    · exact same rfl rfl
    · exact same rfl rfl
    · exact same (out_onError w rot e).1 (out_onError w rot e).2
    · exact G.elim

theorem use_like (Z : Zlib) (rot : Bool) (op : Op) {g g' : Gen} (L : GLike g g') (s : Stream) :
    (g.use Z rot op s).1 = (g'.use Z rot op s).1 ∧ GLike (g.use Z rot op s).2.1 (g'.use Z rot op s).2.1 ∧
    (g.use Z rot op s).2.2 = (g'.use Z rot op s).2.2 := by
  cases op with
  | next => exact next_like Z rot L s
  | close => exact ⟨rfl, trivial, rfl⟩
  | throw e =>
    unfold GLike at L
    split at L <;> first | exact ⟨rfl, trivial, rfl⟩ | exact L.elim

theorem history_write (Z : Zlib) (blk off : Nat) (bytes : Bytes) (ops : List Obj.Op) (gs : List (Bool × Obj.Gen)) (w : World) :
    Obj.history Z (.write blk off bytes :: ops) gs w = Obj.history Z ops gs (Obj.poke w blk off bytes) := rfl

theorem history_none (Z : Zlib) {i : Nat} {op : Op} (ops : List Obj.Op) {gs : List (Bool × Obj.Gen)} (w : World) (h : gs[i]? = none) :
    Obj.history Z (.use i op :: ops) gs w = Obj.history Z ops gs w := by
  rw [Obj.history, h]

theorem history_next (Z : Zlib) {i : Nat} {op : Op} (ops : List Obj.Op) {gs : List (Bool × Obj.Gen)} (w : World) {rot g} (h : gs[i]? = some (rot, g)) :
    Obj.history Z (.use i op :: ops) gs w =
      ((i, (g.use Z rot op w).1, (g.use Z rot op w).2.2) :: (Obj.history Z ops (gs.set i (rot, (g.use Z rot op w).2.1)) (g.use Z rot op w).2.2).1,
        (Obj.history Z ops (gs.set i (rot, (g.use Z rot op w).2.1)) (g.use Z rot op w).2.2).2) := by
  rw [Obj.history, h]

/-- Every generator makes sense in the world. -/
def Sound (w : World) (gs : List (Bool × Obj.Gen)) : Prop := ∀ p ∈ gs, ∃ g', GNow w p.2 g'

theorem Sound.poke {w gs} (S : Sound w gs) (blk off : Nat) (bytes : Bytes) : Sound (Obj.poke w blk off bytes) gs := by
  intro p hp
  obtain ⟨g', G⟩ := S p hp
  obtain ⟨g2, G2, -⟩ := G.poke blk off bytes
  exact ⟨g2, G2⟩

theorem Sound.step {w gs} (S : Sound w gs) (Z : Zlib) {i : Nat} {op : Op} {rot g} (h : gs[i]? = some (rot, g)) :
    Sound (g.use Z rot op w).2.2 (gs.set i (rot, (g.use Z rot op w).2.1)) ∧ ∃ g', StepRel w (g.use Z rot op w) (Gen.use Z rot op g' w.file) := by
  obtain ⟨g', G⟩ := S _ (List.mem_of_getElem? h)
  have R := use_rel Z rot op G
  refine ⟨?_, g', R⟩
  intro p hp
  rcases List.mem_or_eq_of_mem_set hp with hp | rfl
  · obtain ⟨g2, G2⟩ := S p hp
    exact ⟨g2, G2.ext R.ext⟩
  · exact ⟨_, R.gen⟩

/-- What a step does to the memory: it only adds to it; new header objects first, then what is yielded. -/
structure StepGrow (w : World) (x : Obj.Out × Obj.Gen × World) : Prop where
  heap : w.heap <+: x.2.2.heap
  new : ∃ l mid, x.2.2.headers.map HObj.blk = w.headers.map HObj.blk ++ l ∧ (∀ b ∈ l, w.heap.length ≤ b ∧ b < mid) ∧
      Within mid x.2.2.heap.length x.1.blocks ∧ w.heap.length ≤ mid ∧ mid ≤ x.2.2.heap.length

theorem StepGrow.len {w x} (R : StepGrow w x) : w.heap.length ≤ x.2.2.heap.length := R.heap.length_le

/-- A property of the world and its generators that no write and no step breaks, and under which steps only add to the memory. -/
structure Stable (Z : Zlib) (S : World → List (Bool × Obj.Gen) → Prop) : Prop where
  poke : ∀ {w gs} (_ : S w gs) (blk off : Nat) (bytes : Bytes), S (Obj.poke w blk off bytes) gs
  step : ∀ {w gs} (_ : S w gs) {i : Nat} (op : Op) {rot : Bool} {g : Obj.Gen}, gs[i]? = some (rot, g) →
    S (g.use Z rot op w).2.2 (gs.set i (rot, (g.use Z rot op w).2.1)) ∧ StepGrow w (g.use Z rot op w)

theorem sound_stable (Z : Zlib) : Stable Z Sound where
  poke S := S.poke
  step S _ _ _ _ h := by
    obtain ⟨S', g', R⟩ := S.step Z h
    exact ⟨S', R.ext.1, R.new⟩

/-- Along a history: memory only grows, header objects stay over their blocks, blocks nobody writes to stay as they are. -/
theorem history_grows {Z : Zlib} {Q : World → List (Bool × Obj.Gen) → Prop} (I : Stable Z Q) : ∀ (ops : List Obj.Op) (gs : List (Bool × Obj.Gen)) (w : World), Q w gs →
    let r := Obj.history Z ops gs w
    w.heap.length ≤ r.2.2.heap.length ∧ (w.headers.map HObj.blk <+: r.2.2.headers.map HObj.blk) ∧
    (∀ b ∈ (r.2.2.headers.map HObj.blk).drop w.headers.length, w.heap.length ≤ b) ∧
    ∀ b < w.heap.length, (∀ off bytes, .write b off bytes ∉ ops) → r.2.2.heap[b]? = w.heap[b]?
  | [], gs, w, S => ⟨Nat.le_refl _, List.prefix_rfl, (fun b hb => by rw [List.drop_eq_nil_of_le (by simp [Obj.history])] at hb; cases hb), fun _ _ _ => rfl⟩
  | .write blk off bytes :: ops, gs, w, S => by
    have ih := history_grows I ops gs _ (I.poke S blk off bytes)
    rw [history_write]
    dsimp only at ih ⊢
    rw [poke_len, poke_headers] at ih
    obtain ⟨i1, i2, i3, i4⟩ := ih
    refine ⟨i1, i2, i3, fun b hb hn => ?_⟩
    rw [i4 b hb fun o x h => hn o x (List.mem_cons_of_mem _ h), poke_other]
    rintro rfl
    exact hn _ _ (List.mem_cons_self ..)
  | .use i op :: ops, gs, w, S => by
    cases h : gs[i]? with
    | none =>
      rw [history_none Z ops w h]
      obtain ⟨i1, i2, i3, i4⟩ := history_grows I ops gs w S
      exact ⟨i1, i2, i3, fun b hb hn => i4 b hb fun o x h => hn o x (List.mem_cons_of_mem _ h)⟩
    | some p =>
      obtain ⟨rot, g⟩ := p
      obtain ⟨S', R⟩ := I.step S op h
      rw [history_next Z ops w h]
      obtain ⟨i1, i2, i3, i4⟩ := history_grows I ops _ _ S'
      obtain ⟨l, mid, n1, n2, n3, n4, n5⟩ := R.new
      have hlen : (g.use Z rot op w).2.2.headers.length = w.headers.length + l.length := by
        have := congrArg List.length n1
        simpa using this
      dsimp only
      refine ⟨Nat.le_trans R.len i1, List.IsPrefix.trans ⟨l, n1.symm⟩ i2, ?_, fun b hb hn => ?_⟩
      · intro b hb
        obtain ⟨t, ht⟩ := i2
        rw [← ht, n1, List.append_assoc, List.drop_left' (by simp)] at hb
        rcases List.mem_append.mp hb with hb | hb
        · exact (n2 b hb).1
        · refine Nat.le_trans R.len (i3 b ?_)
          rw [← ht, List.drop_left' (by simp)]
          exact hb
      · rw [i4 b (Nat.lt_of_lt_of_le hb R.len) fun o x h => hn o x (List.mem_cons_of_mem _ h)]
        obtain ⟨t, ht⟩ := R.heap
        rw [← ht, List.getElem?_append_left hb]

theorem wf_iff (w : World) : w.WF ↔ ∀ b ∈ w.headers.map HObj.blk, b < w.heap.length := by
  simp [World.WF]

theorem history_separate {Z : Zlib} {Q : World → List (Bool × Obj.Gen) → Prop} (I : Stable Z Q) : ∀ (ops : List Obj.Op) (gs : List (Bool × Obj.Gen)) (w : World), Q w gs → w.WF →
    (givenBlocks (Obj.history Z ops gs w).1).Pairwise (· < ·) ∧
    ∀ b ∈ givenBlocks (Obj.history Z ops gs w).1, w.heap.length ≤ b ∧ b ∉ (Obj.history Z ops gs w).2.2.headers.map HObj.blk
  | [], gs, w, _, _ => ⟨List.Pairwise.nil, nofun⟩
  | .write blk off bytes :: ops, gs, w, S, W => by
    have ih := history_separate I ops gs _ (I.poke S blk off bytes) (by
      intro o ho; rw [poke_headers] at ho; rw [poke_len]; exact W o ho)
    rw [history_write]
    rw [poke_len] at ih
    exact ih
  | .use i op :: ops, gs, w, S, W => by
    cases h : gs[i]? with
    | none =>
      rw [history_none Z ops w h]
      exact history_separate I ops gs w S W
    | some p =>
      obtain ⟨rot, g⟩ := p
      obtain ⟨S', R⟩ := I.step S op h
      rw [history_next Z ops w h]
      obtain ⟨l, mid, n1, n2, n3, n4, n5⟩ := R.new
      have W' : (g.use Z rot op w).2.2.WF := by
        rw [wf_iff] at W ⊢
        intro b hb
        rw [n1] at hb
        have := R.len
        rcases List.mem_append.mp hb with hb | hb
        · have := W b hb; omega
        · have := n2 b hb; omega
      obtain ⟨j1, j2⟩ := history_separate I ops _ _ S' W'
      obtain ⟨i1, i2, i3, i4⟩ := history_grows I ops _ _ S'
      show ((g.use Z rot op w).1.blocks ++ givenBlocks _).Pairwise _ ∧ ∀ b ∈ (g.use Z rot op w).1.blocks ++ givenBlocks _, _
      refine ⟨List.pairwise_append.mpr ⟨n3.1, j1, fun a ha b hb => ?_⟩, fun b hb => ?_⟩
      · have := n3.2 a ha
        have := j2 b hb
        omega
      · rcases List.mem_append.mp hb with hb | hb
        · have hb' := n3.2 b hb
          refine ⟨by omega, fun hm => ?_⟩
          obtain ⟨t, ht⟩ := i2
          dsimp only at hm
          rw [← ht] at hm
          rcases List.mem_append.mp hm with hm | hm
          · rw [n1] at hm
            rcases List.mem_append.mp hm with hm | hm
            · have := (wf_iff w).mp W b hm; omega
            · have := n2 b hm; omega
          · have := i3 b (by rw [← ht, List.drop_left' (by simp)]; exact hm)
            omega
        · have := j2 b hb
          have := R.len
          exact ⟨by omega, (j2 b hb).2⟩

theorem history_kept {Z : Zlib} {Q : World → List (Bool × Obj.Gen) → Prop} (I : Stable Z Q) : ∀ (ops : List Obj.Op) (gs : List (Bool × Obj.Gen)) (w : World), Q w gs →
    ∀ p ∈ (Obj.history Z ops gs w).1, ∀ b ∈ p.2.1.blocks, (∀ off bytes, .write b off bytes ∉ ops) →
      (Obj.history Z ops gs w).2.2.heap[b]? = p.2.2.heap[b]?
  | [], gs, w, _ => nofun
  | .write blk off bytes :: ops, gs, w, S => by
    have ih := history_kept I ops gs _ (I.poke S blk off bytes)
    rw [history_write]
    exact fun p hp b hb hn => ih p hp b hb fun o x h => hn o x (List.mem_cons_of_mem _ h)
  | .use i op :: ops, gs, w, S => by
    cases h : gs[i]? with
    | none =>
      rw [history_none Z ops w h]
      exact fun p hp b hb hn => history_kept I ops gs w S p hp b hb fun o x h => hn o x (List.mem_cons_of_mem _ h)
    | some p =>
      obtain ⟨rot, g⟩ := p
      obtain ⟨S', R⟩ := I.step S op h
      rw [history_next Z ops w h]
      obtain ⟨l, mid, n1, n2, n3, n4, n5⟩ := R.new
      intro p hp b hb hn
      have hn' : ∀ off bytes, Obj.Op.write b off bytes ∉ ops := fun o x h => hn o x (List.mem_cons_of_mem _ h)
      rcases List.mem_cons.mp hp with rfl | hp
      · exact (history_grows I ops _ _ S').2.2.2 b (n3.2 b hb).2 hn'
      · exact history_kept I ops _ _ S' p hp b hb hn'

theorem tuple_congr {w w' : World} {x : Obj.Tuple} (h : ∀ b ∈ x.blocks, w.heap[b]? = w'.heap[b]?) : w.tuple x = w'.tuple x := by
  have hi : ∀ y : Ref, y.blk ∈ x.blocks → w.inst y = w'.inst y := by
    intro y hy
    unfold World.inst
    rw [List.getD_eq_getElem?_getD, List.getD_eq_getElem?_getD, h _ hy]
  unfold World.tuple
  have h1 := hi x.record (by simp [Obj.Tuple.blocks])
  have h2 := hi x.sstat (by simp [Obj.Tuple.blocks])
  have h3 : x.tstats.map w.inst = x.tstats.map w'.inst :=
    List.map_congr_left fun y hy => hi y (by simp only [Obj.Tuple.blocks, List.mem_cons, List.mem_append, List.mem_map]; exact .inr (.inr (.inl ⟨y, hy, rfl⟩)))
  have h4 : x.cgroups.map w.group = x.cgroups.map w'.group := List.map_congr_left fun y hy => by
    have hm : ∀ b ∈ y.blocks, b ∈ x.blocks := fun b hb => by
      simp only [Obj.Tuple.blocks, List.mem_cons, List.mem_append, List.mem_flatMap]
      exact .inr (.inr (.inr ⟨y, hy, hb⟩))
    unfold World.group
    rw [hi y.cstat (hm _ (by simp [Obj.Group.blocks])), hi y.proclist (hm _ (by simp [Obj.Group.blocks]))]
  rw [h1, h2, h3, h4]

/-- The generators are what became of the generators on values. -/
def Alike (w : World) (gs : List (Bool × Obj.Gen)) (gs' : List (Bool × Gen)) : Prop :=
  gs.length = gs'.length ∧ ∀ (i : Nat) (p : Bool × Obj.Gen) (q : Bool × Gen), gs[i]? = some p → gs'[i]? = some q → p.1 = q.1 ∧ ∃ g1, GNow w p.2 g1 ∧ GLike g1 q.2

theorem Alike.sound {w gs gs'} (A : Alike w gs gs') : Sound w gs := by
  intro p hp
  obtain ⟨i, hi, rfl⟩ := List.mem_iff_getElem.mp hp
  obtain ⟨-, g1, G, -⟩ := A.2 i _ _ (List.getElem?_eq_getElem hi) (List.getElem?_eq_getElem (A.1 ▸ hi))
  exact ⟨g1, G⟩

theorem history_values (Z : Zlib) : ∀ (ops : List Obj.Op) (gs : List (Bool × Obj.Gen)) (gs' : List (Bool × Gen)) (w : World),
    Alike w gs gs' →
    (∀ blk off bytes, .write blk off bytes ∈ ops → blk ∈ (Obj.history Z ops gs w).2.2.headers.map HObj.blk → Spares off bytes.length) →
    ((Obj.history Z ops gs w).1.map fun p => (p.1, p.2.2.out p.2.1)) = (used Z (stepsOf ops) gs' w.file).1 ∧
    (Obj.history Z ops gs w).2.2.file = (used Z (stepsOf ops) gs' w.file).2.2
  | [], gs, gs', w, _, _ => ⟨rfl, rfl⟩
  | .write blk off bytes :: ops, gs, gs', w, A, H => by
    rw [history_write] at H ⊢
    have i2 := (history_grows (sound_stable Z) ops gs _ (A.sound.poke blk off bytes)).2.1
    rw [poke_headers] at i2
    have ih := history_values Z ops gs gs' (Obj.poke w blk off bytes) ⟨A.1, fun i p q hp hq => by
      obtain ⟨h1, g1, G, L⟩ := A.2 i p q hp hq
      obtain ⟨g2, G2, L2⟩ := G.poke blk off bytes
      exact ⟨h1, g2, G2, L2 (fun hm => H _ _ _ (List.mem_cons_self ..) (i2.subset hm)) _ L⟩⟩
      fun b o x h => H b o x (List.mem_cons_of_mem _ h)
    rw [poke_file] at ih
    exact ih
  | .use i op :: ops, gs, gs', w, A, H => by
    show _ = (used Z ((i, op) :: stepsOf ops) gs' w.file).1 ∧ _ = (used Z ((i, op) :: stepsOf ops) gs' w.file).2.2
    cases h : gs[i]? with
    | none =>
      have h' : gs'[i]? = none := by rw [List.getElem?_eq_none_iff] at h ⊢; rw [← A.1]; exact h
      rw [history_none Z ops w h] at H ⊢
      rw [used, h']
      exact history_values Z ops gs gs' w A fun b o x h => H b o x (List.mem_cons_of_mem _ h)
    | some p =>
      obtain ⟨rot, g⟩ := p
      have hi := (List.getElem?_eq_some_iff.mp h).1
      have h' : gs'[i]? = some (gs'[i]'(A.1 ▸ hi)) := List.getElem?_eq_getElem _
      generalize gs'[i]'(A.1 ▸ hi) = q at h'
      obtain ⟨rot', g'⟩ := q
      obtain ⟨hrot, g1, G, L⟩ := A.2 i _ _ h h'
      dsimp only at hrot G L
      subst hrot
      have R := use_rel Z rot op G
      obtain ⟨L1, L2, L3⟩ := use_like Z rot op L w.file
      rw [history_next Z ops w h] at H ⊢
      rw [used, h']
      have ih := history_values Z ops (gs.set i (rot, (g.use Z rot op w).2.1)) (gs'.set i (rot, (g'.use Z rot op w.file).2.1))
        (g.use Z rot op w).2.2 ⟨by simp [A.1], fun j p q hp hq => by
          by_cases hj : i = j
          · subst hj
            rw [List.getElem?_set_self hi] at hp
            rw [List.getElem?_set_self (A.1 ▸ hi)] at hq
            cases hp
            cases hq
            exact ⟨rfl, _, R.gen, L2⟩
          · rw [List.getElem?_set_ne hj] at hp hq
            obtain ⟨a1, a2, a3, a4⟩ := A.2 j p q hp hq
            exact ⟨a1, a2, a3.ext R.ext, a4⟩⟩ fun b o x h => H b o x (List.mem_cons_of_mem _ h)
      rw [R.file, L3] at ih
      refine ⟨?_, ih.2⟩
      show (i, _) :: List.map _ _ = (i, _) :: _
      rw [ih.1, R.out, L1]

end Atop
