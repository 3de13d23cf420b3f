import Verif.Spec.SourceAttr
import Verif.Proofs.SourceBase
import Verif.Proofs.Layouts
import Verif.Props.Layouts
/-!
# Reading attributes (C75, proofs)
-/

namespace Atop.Src
open Spec

/-! ## Layouts -/

/-- What the node of a field is. -/
def FieldNode (base o : Nat) (t : CType) (n : Node) : Prop :=
  (t.isArray = false ∧ n = t.node (base + o)) ∨ (∃ k, t = .array .char k ∧ n = .text (base + o) k) ∨
  ∃ e k cnt, t = .array e k ∧ e ≠ .char ∧ n = .list k e.size cnt (e.node (base + o))

theorem lookup_name {a : PyStr} {o : Nat} {t : CType} : ∀ (fs : Fields) (off : Nat), fs.lookup a off = some (o, t) → a ∈ fs.toList.map Prod.fst
  | .nil, _, h => by cases h
  | .cons name t' rest, off, h => by
    rw [Fields.lookup] at h
    rw [Fields.toList, List.map_cons]
    split at h
    · rename_i hn; subst hn; exact List.mem_cons_self
    · exact List.mem_cons_of_mem _ (lookup_name rest _ h)

theorem rows_get : ∀ (fs : Fields) (all : Fields) (lims : List (PyStr × PyStr)) (base off : Nat) (a : PyStr) (n : Node),
    (fs.rows all lims base off).get? a = some n → (fs.toList.map Prod.fst).Nodup →
    ∃ o t, fs.lookup a off = some (o, t) ∧ FieldNode base o t n
  | .nil, _, _, _, _, _, _, h, _ => by cases h
  | .cons name t rest, all, lims, base, off, a, n, h, hnd => by
    have hnd' : name ∉ rest.toList.map Prod.fst ∧ (rest.toList.map Prod.fst).Nodup := by
      rw [Fields.toList] at hnd; simpa using hnd
    have tail : ((rest.rows all lims base (roundUp off t.align + t.size)).get? a = some n) →
        ∃ o t', (Fields.cons name t rest).lookup a off = some (o, t') ∧ FieldNode base o t' n := by
      intro h
      obtain ⟨o, t', h1, h2⟩ := rows_get rest all lims base _ a n h hnd'.2
      refine ⟨o, t', ?_, h2⟩
      rw [Fields.lookup, if_neg, h1]
      rintro rfl
      exact hnd'.1 (lookup_name rest _ h1)
    have head : ∀ x, FieldNode base (roundUp off t.align) t x → (NodeRows.cons name x (rest.rows all lims base (roundUp off t.align + t.size))).get? a = some n →
        ∃ o t', (Fields.cons name t rest).lookup a off = some (o, t') ∧ FieldNode base o t' n := by
      intro x hx h
      rw [NodeRows.get?] at h
      split at h
      · cases h
        rename_i hn
        exact ⟨_, _, by rw [Fields.lookup, if_pos hn], hx⟩
      · exact tail h
    have futu : ∀ x, FieldNode base (roundUp off t.align) t x → (if isFuture name then rest.rows all lims base (roundUp off t.align + t.size)
          else NodeRows.cons name x (rest.rows all lims base (roundUp off t.align + t.size))).get? a = some n →
        ∃ o t', (Fields.cons name t rest).lookup a off = some (o, t') ∧ FieldNode base o t' n := by
      intro x hx h
      split at h
      · exact tail h
      · exact head x hx h
    match t with
    | .struct c fs l =>
      simp only [Fields.rows] at h
      exact head _ (.inl ⟨rfl, by rw [CType.node]⟩) h
    | .int w s => simp only [Fields.rows] at h; exact futu _ (.inl ⟨rfl, rfl⟩) h
    | .float => simp only [Fields.rows] at h; exact futu _ (.inl ⟨rfl, rfl⟩) h
    | .char => simp only [Fields.rows] at h; exact futu _ (.inl ⟨rfl, rfl⟩) h
    | .array .char k => simp only [Fields.rows] at h; exact futu _ (.inr (.inl ⟨k, rfl, rfl⟩)) h
    | .array (.int w s) k => simp only [Fields.rows] at h; exact futu _ (.inr (.inr ⟨_, k, _, rfl, by simp, rfl⟩)) h
    | .array .float k => simp only [Fields.rows] at h; exact futu _ (.inr (.inr ⟨_, k, _, rfl, by simp, rfl⟩)) h
    | .array (.array e j) k => simp only [Fields.rows] at h; exact futu _ (.inr (.inr ⟨_, k, _, rfl, by simp, rfl⟩)) h
    | .array (.struct c fs l) k => simp only [Fields.rows] at h; exact futu _ (.inr (.inr ⟨_, k, _, rfl, by simp, rfl⟩)) h

/-! ## Values -/

/-- `block` and `mem` begin with the same `N` bytes. -/
def Same (N : Nat) (block mem : Bytes) : Prop := block.take N = mem.take N ∧ N ≤ mem.length

theorem Same.part {N : Nat} {block mem : Bytes} (h : Same N block mem) {o w : Nat} (hw : o + w ≤ N) :
    (block.drop o).take w = (mem.drop o).take w := by
  have a := sub_sub block 0 N o w hw
  have b := sub_sub mem 0 N o w hw
  rw [Nat.zero_add, List.drop_zero] at a b
  rw [← a, ← b, h.1]

section
variable {R : Rt} {G : PyStr → Option Val} {env : Env} {w : W} {blk N : Nat} {mem : Bytes}

theorem mem_part (hs : Same N (w.heap.getD blk []) mem) {o n : Nat} (h : o + n ≤ N) : Src.mem w blk o n = bytesAt mem o n := hs.part h

/-- A scalar or structure. -/
theorem item_reads (hs : Same N (w.heap.getD blk []) mem) {t : CType} (hg : t.good = true) (ha : t.isArray = false) {base shift : Nat}
    (h : base + shift + t.size ≤ N) : (t.node base).Reads mem shift (itemAt w t blk (base + shift)) := by
  have hN := hs.2
  match t with
  | .struct c fs l => rw [CType.node]; exact ⟨_, _, _, rfl⟩
  | .array e n => cases ha
  | .float =>
    have h : base + shift + 4 ≤ N := h
    refine ⟨_, rfl, ?_⟩
    rw [mem_part hs h]
    exact storedInt_leNat (by omega)
  | .char =>
    have h : base + shift + 1 ≤ N := h
    have ho : base + shift < mem.length := by omega
    refine ⟨mem[base + shift], List.getElem?_eq_getElem ho, ?_⟩
    show Val.bytes (Src.mem w blk (base + shift) 1) = _
    rw [mem_part hs h]
    unfold bytesAt
    rw [List.drop_eq_getElem_cons ho]
    rfl
  | .int n s =>
    have h : base + shift + n ≤ N := h
    have := storedInt_leInt (mem := mem) (good_int_pos hg) (o := base + shift) (by omega) s
    have hm := mem_part hs h
    cases s <;> refine ⟨_, rfl, ?_⟩ <;> rw [hm] <;> exact this

theorem listItem_nat {vs : List Val} {i : Nat} {v : Val} (h : vs[i]? = some v) : listItem vs i = some v := by
  unfold listItem
  rw [if_pos (by omega)]
  exact h

theorem listItem_neg {vs : List Val} {i : Int} {v : Val} (hi : i < 0) (h0 : 0 ≤ i + vs.length) (h : vs[(i + vs.length).toNat]? = some v) :
    listItem vs i = some v := by
  unfold listItem
  rw [if_neg (by omega), if_pos h0]
  exact h

theorem arrayItems_get (w : W) (e : CType) {n i : Nat} (blk off : Nat) (h : i < n) :
    (arrayItems w e n blk off)[i]? = some (itemAt w e blk (off + i * e.size)) := by
  unfold arrayItems
  rw [List.getElem?_map, List.getElem?_eq_getElem (by simpa using h)]
  simp

theorem arrayItems_length (w : W) (e : CType) (n blk off : Nat) : (arrayItems w e n blk off).length = n := by
  unfold arrayItems; simp

/-- Reading on from a value in memory. -/
def Goes (R : Rt) (w : W) (blk N : Nat) (mem : Bytes) (p : List Step) : Prop :=
  ∀ (t : CType), t.good = true → t.isArray = false → ∀ (base shift : Nat) (n' : Node) (shift' : Nat),
    (t.node base).find p shift = some (n', shift') → base + shift + t.size ≤ N →
    ∃ v, n'.Reads mem shift' v ∧ ∀ G env e, eval R G e env w = (.ok (itemAt w t blk (base + shift)), w) →
      eval R G (pathExpr e p) env w = (.ok v, w)

/-- ... from the value of a field. -/
theorem goes_field (hs : Same N (w.heap.getD blk []) mem) {p : List Step} (ih : ∀ q, q.length ≤ p.length → Goes R w blk N mem q)
    {t : CType} (hg : t.good = true) {base o shift : Nat} {n n' : Node} {shift' : Nat} (hn : FieldNode base o t n)
    (hf : n.find p shift = some (n', shift')) (hN : base + o + shift + t.size ≤ N) :
    ∃ v, n'.Reads mem shift' v ∧ ∀ G env e, eval R G e env w = (.ok (fieldAt w t blk (base + o + shift)), w) →
      eval R G (pathExpr e p) env w = (.ok v, w) := by
  rcases hn with ⟨ha, rfl⟩ | ⟨k, rfl, rfl⟩ | ⟨e, k, cnt, rfl, he, rfl⟩
  · obtain ⟨v, h1, h2⟩ := ih p (Nat.le_refl _) t hg ha (base + o) shift n' shift' hf hN
    refine ⟨v, h1, fun G env e he => h2 G env e ?_⟩
    rw [he]
    cases t <;> first | rfl | cases ha
  · have hp : p = [] := by
      cases p with
      | nil => rfl
      | cons s p => cases s <;> (rw [Node.find] at hf; cases hf; all_goals simp)
    subst hp
    cases hf
    refine ⟨_, ?_, fun G env e he => he⟩
    have hk : (CType.array .char k).size = k := by simp [CType.size]
    rw [hk] at hN
    show Val.bytes (cstr (Src.mem w blk (base + o + shift) k)) = .bytes (beforeNul (bytesAt mem (base + o + shift) k))
    rw [mem_part hs hN, cstr_eq]
  · simp only [CType.good, Bool.and_eq_true, Bool.not_eq_true'] at hg
    have fe : ∀ off, fieldAt w (.array e k) blk off = .view (.array e k) blk off := by
      intro off
      cases e <;> first | rfl | exact absurd rfl he
    have hsize : (CType.array e k).size = k * e.size := by rw [CType.size]
    rw [hsize] at hN
    cases p with
    | nil =>
      cases hf
      exact ⟨_, ⟨e, blk, _, rfl⟩, fun G env e' h => h.trans (by rw [fe])⟩
    | cons s p =>
      have go : ∀ (i : Int) (j : Nat), j < k → listItem (arrayItems w e k blk (base + o + shift)) i = some (itemAt w e blk (base + o + (shift + j * e.size))) →
          (e.node (base + o)).find p (shift + j * e.size) = some (n', shift') →
          ∃ v, n'.Reads mem shift' v ∧ ∀ G env e', eval R G e' env w = (.ok (fieldAt w (.array e k) blk (base + o + shift)), w) →
            eval R G (pathExpr e' (.item i :: p)) env w = (.ok v, w) := by
        intro i j hj hl hf
        have hle : j * e.size + e.size ≤ k * e.size := by
          have := Nat.mul_le_mul_right e.size (show j + 1 ≤ k from hj)
          rwa [Nat.add_mul, Nat.one_mul] at this
        obtain ⟨v, h1, h2⟩ := ih p (by simp) e hg.2 hg.1 (base + o) _ n' shift' hf (by omega)
        refine ⟨v, h1, fun G env e' he' => ?_⟩
        rw [pathExpr]
        refine h2 G env _ ?_
        rw [eval_sub (he'.trans (by rw [fe])) (eval_const _ _ _)]
        show (match listItem (arrayItems w e k blk (base + o + shift)) i with
          | some v => (Except.ok v, w)
          | none => (Except.error (PExc.other py!"IndexError"), w)) = _
        rw [hl]
      cases s with
      | attr a => rw [Node.find] at hf; cases hf; all_goals simp
      | item i =>
        rw [Node.find] at hf
        split at hf
        · rename_i hi
          obtain ⟨j, rfl⟩ := Int.eq_ofNat_of_zero_le hi.1
          have hj : j < k := by omega
          refine go j j hj (listItem_nat ?_) (by simpa using hf)
          rw [arrayItems_get w e blk _ hj, Nat.add_assoc]
        · split at hf
          · rename_i h1 h2
            refine go i (i + k).toNat (by omega) (listItem_neg h2.1 (by rw [arrayItems_length]; exact h2.2) ?_) hf
            rw [arrayItems_length, arrayItems_get w e blk _ (by omega), Nat.add_assoc]
          · cases hf

theorem struct_field {c : PyStr} {fs : Fields} {l : List (PyStr × PyStr)} (hg : (CType.struct c fs l).good = true) {a : PyStr} {o : Nat} {t : CType}
    (h : fs.lookup a 0 = some (o, t)) : t.good = true ∧ o + t.size ≤ (CType.struct c fs l).size := by
  simp only [CType.good, Bool.and_eq_true, decide_eq_true_eq] at hg
  have hm : (a, o, t) ∈ fs.layout 0 := by rw [lookup_layout] at h; exact lookup_mem h
  have := (layout_end fs 0 hg.1.1).2 _ hm
  dsimp only at this
  refine ⟨fgood_mem 0 hg.1.1 _ hm, ?_⟩
  rw [CType.size]
  have := roundUp_spec (fs.endOff 0) fs.align (falign_pos fs)
  omega

/-- The first step from a structure. -/
theorem find_struct {c : PyStr} {fs : Fields} {l : List (PyStr × PyStr)} (hg : (CType.struct c fs l).good = true) {base shift : Nat}
    {s : Step} {p : List Step} {n' : Node} {shift' : Nat} (h : ((CType.struct c fs l).node base).find (s :: p) shift = some (n', shift')) :
    ∃ a o t n, s = .attr a ∧ fs.lookup a 0 = some (o, t) ∧ FieldNode base o t n ∧ n.find p shift = some (n', shift') := by
  rw [CType.node] at h
  cases s with
  | item i => rw [Node.find] at h; cases h; all_goals simp
  | attr a =>
    rw [Node.find] at h
    split at h
    · rename_i n hn
      simp only [CType.good, Bool.and_eq_true, decide_eq_true_eq] at hg
      obtain ⟨o, t, h1, h2⟩ := rows_get _ _ _ _ _ _ _ hn hg.1.2
      exact ⟨a, o, t, n, rfl, h1, h2, h⟩
    · cases h

theorem goes (hs : Same N (w.heap.getD blk []) mem) : ∀ (k : Nat) (p : List Step), p.length ≤ k → Goes R w blk N mem p
  | k, [], _, t, hg, ha, base, shift, n', shift', hf, hN => by
    cases hf
    exact ⟨_, item_reads hs hg ha hN, fun G env e h => h⟩
  | k + 1, s :: p, hk, t, hg, ha, base, shift, n', shift', hf, hN => by
    match t with
    | .array e n => cases ha
    | .float => cases s <;> (rw [CType.node, Node.find] at hf; cases hf; all_goals simp)
    | .char => cases s <;> (rw [CType.node, Node.find] at hf; cases hf; all_goals simp)
    | .int n true => cases s <;> (rw [CType.node, Node.find] at hf; cases hf; all_goals simp)
    | .int n false => cases s <;> (rw [CType.node, Node.find] at hf; cases hf; all_goals simp)
    | .struct c fs l =>
      obtain ⟨a, o, t, n, rfl, h1, h2, h3⟩ := find_struct hg hf
      obtain ⟨g1, g2⟩ := struct_field hg h1
      obtain ⟨v, v1, v2⟩ := goes_field (R := R) hs (fun q hq => goes hs k q (by simp at hk; omega)) g1 h2 h3 (by omega)
      refine ⟨v, v1, fun G env e he => ?_⟩
      rw [pathExpr]
      refine v2 G env _ ?_
      rw [eval_attr he]
      show viewAttr (.struct c fs l) blk (base + shift) a w = _
      unfold viewAttr
      rw [show base + o + shift = base + shift + o by omega]
      dsimp only
      rw [h1]

theorem pathExpr_item : ∀ (p : List Step) (e : Expr) (i : Int), pathExpr e (p ++ [.item i]) = .sub (pathExpr e p) (.const (.int i))
  | [], _, _ => rfl
  | .attr a :: p, e, i => by rw [List.cons_append, pathExpr, pathExpr_item p, pathExpr]
  | .item j :: p, e, i => by rw [List.cons_append, pathExpr, pathExpr_item p, pathExpr]

/-- An index outside. -/
theorem outside {x : Val} {p : List Step} {cap stride : Nat} {count : Option (Nat × Nat × Bool)} {entry : Node} {shift : Nat}
    (h : Gets R w x p ((Node.list cap stride count entry).Reads mem shift)) {i : Int} (hi : i < -cap ∨ cap ≤ i) :
    GetsError R w x (p ++ [.item i]) (.other py!"IndexError") := by
  obtain ⟨v, ⟨t, blk, off, rfl⟩, h2⟩ := h
  intro G env y hy
  rw [pathExpr_item, eval_sub (h2 G env y hy) (eval_const _ _ _)]
  have : listItem (arrayItems w t cap blk off) i = none := by
    unfold listItem
    rw [arrayItems_length]
    split
    · exact List.getElem?_eq_none (by rw [arrayItems_length]; omega)
    · rw [if_neg (by omega)]
  show (match listItem (arrayItems w t cap blk off) i with
    | some v => (Except.ok v, w)
    | none => (Except.error (PExc.other py!"IndexError"), w)) = _
  rw [this]

/-- **Structures.** -/
theorem reads_view {t : CType} (ht : t ∈ classes) (hm : Same t.size (w.heap.getD blk []) mem) :
    ReadsAs R w (.view t blk 0) (t.node 0) mem := by
  intro p n' shift' hf hp
  obtain ⟨c, fs, lims, hG⟩ := class_Good ht
  obtain rfl := hG.eq
  obtain ⟨v, v1, v2⟩ := goes (R := R) hm p.length p (Nat.le_refl _) (.struct c fs lims) (class_good ht) rfl 0 0 n' shift' hf (by omega)
  have h : Gets R w (.view (.struct c fs lims) blk 0) p (n'.Reads mem shift') :=
    ⟨v, v1, fun G env y hy => v2 G env _ (by rw [eval_name hy]; rfl)⟩
  refine ⟨h, ?_⟩
  rintro cap stride count entry rfl i hi
  exact outside h hi

/-- **Headers.** -/
theorem reads_hdr {i : Nat} {o : PHdr} (ho : w.headers[i]? = some o) (ht : headerType o.cls ∈ classes)
    (hm : Same (headerType o.cls).size (w.heap.getD o.blk []) mem) :
    ReadsAs R w (.hdr i) ((headerType o.cls).node 0) mem := by
  intro p n' shift' hf hp
  cases p with
  | nil => exact absurd rfl hp
  | cons s p =>
    have hg := class_good ht
    obtain ⟨a, o', t, n, rfl, h1, h2, h3⟩ := find_struct hg hf
    obtain ⟨g1, g2⟩ := struct_field hg h1
    obtain ⟨v, v1, v2⟩ := goes_field (R := R) hm (fun q hq => goes hm _ q (Nat.le_refl _)) g1 h2 h3 (by
      have : (headerType o.cls).size = (CType.struct _ o.cls.fields _).size := rfl
      omega)
    have h : Gets R w (.hdr i) (.attr a :: p) (n'.Reads mem shift') := by
      refine ⟨v, v1, fun G env y hy => ?_⟩
      rw [pathExpr]
      refine v2 G env _ ?_
      rw [eval_attr (eval_name hy)]
      show hdrAttr R i a w = _
      unfold hdrAttr
      rw [ho]
      dsimp only
      have h1 : o.cls.fields.lookup a 0 = some (o', t) := h1
      rw [h1]
      dsimp only
      rw [Nat.add_zero, Nat.zero_add]
    refine ⟨h, ?_⟩
    rintro cap stride count entry rfl i hi
    exact outside h hi
end
end Atop.Src
