import Verif.Proofs.SourceDict
import Verif.Proofs.DictSpec
/-!
# `struct_to_dict` from its source text: whole structures
-/

namespace Atop.Src
open Atop.Spec
set_option maxRecDepth 20000

variable {Z : Zlib} {fs : FileSystem} {args : CommandLine}
local notation "P" => program Z fs args
local notation "GU" => Rt.globals (program Z fs args) py!"atoparser.utils"

mutual
/-- How deep structures nest. -/
def deep : CType → Nat
  | .struct _ F _ => deeps F + 1
  | .array e _ => deep e
  | _ => 0
def deeps : Fields → Nat
  | .nil => 0
  | .cons _ t r => max (deep t) (deeps r)
end

mutual
/-- No field hides `_fields_` or `fields_limiters`. -/
def plain : CType → Bool
  | .struct _ F _ => (F.lookup py!"_fields_" 0).isNone && (F.lookup py!"fields_limiters" 0).isNone && plains F
  | .array e _ => plain e
  | _ => true
def plains : Fields → Bool
  | .nil => true
  | .cons _ t r => plain t && plains r
end

theorem classes_plain : classes.all plain = true := by decide +kernel

theorem plains_mem : ∀ {F : Fields} (off : Nat), plains F = true → ∀ p ∈ F.layout off, plain p.2.2 = true
  | .nil, _, _, p, hp => by simp [Fields.layout] at hp
  | .cons n t r, off, h, p, hp => by
    simp only [plains, Bool.and_eq_true] at h
    simp only [Fields.layout, List.mem_cons] at hp
    rcases hp with rfl | hp
    · exact h.1
    · exact plains_mem _ h.2 p hp

theorem deeps_mem : ∀ {F : Fields} (off : Nat), ∀ p ∈ F.layout off, deep p.2.2 ≤ deeps F
  | .nil, _, p, hp => by simp [Fields.layout] at hp
  | .cons n t r, off, p, hp => by
    simp only [deeps]
    simp only [Fields.layout, List.mem_cons] at hp
    rcases hp with rfl | hp
    · exact Nat.le_max_left _ _
    · exact Nat.le_trans (deeps_mem _ p hp) (Nat.le_max_right _ _)

/-- An object with the fields `F`, limits `l` and memory at `(blk, off)`. -/
structure IsObj (R : Rt) (w : W) (x : Val) (F : Fields) (l : List (PyStr × PyStr)) (blk off : Nat) : Prop where
  fields : attrOf R x py!"_fields_" w = (.ok (fieldsVal F), w)
  attr : ∀ a o t, F.lookup a 0 = some (o, t) → attrOf R x a w = (.ok (fieldAt w t blk (off + o)), w)
  lims : attrOf R x py!"fields_limiters" w = (if l = [] then (.error (.sys .attributeError), w)
    else (.ok (.dict (l.map fun p => (p.1, .str p.2))), w))

theorem isObj_view {R : Rt} {w : W} {c : PyStr} {F : Fields} {l : List (PyStr × PyStr)} {blk off : Nat}
    (h : plain (.struct c F l) = true) : IsObj R w (.view (.struct c F l) blk off) F l blk off := by
  simp only [plain, Bool.and_eq_true, Option.isNone_iff_eq_none] at h
  obtain ⟨⟨h1, h2⟩, -⟩ := h
  refine ⟨?_, ?_, ?_⟩
  · simp only [attrOf, viewAttr, h1, if_true]
  · intro a o t hl
    simp only [attrOf, viewAttr, hl]
  · have hne : ¬ (py!"fields_limiters" = py!"_fields_") := by decide
    simp only [attrOf, viewAttr, h2, if_neg hne, true_and]
    by_cases hl : l = []
    · simp [hl]
    · simp [hl]

/-- Nested structures are converted. -/
def Nested (R : Rt) (w : W) (k : Nat) : Prop :=
  ∀ (c : PyStr) (F : Fields) (l : List (PyStr × PyStr)) (blk off : Nat), (CType.struct c F l).good = true → plain (.struct c F l) = true →
    deep (.struct c F l) ≤ k →
    ∃ kvs, Conv R w (.view (.struct c F l) blk off) (.dict kvs) ∧ toJkvs kvs = F.vals F l (mem w blk off (CType.struct c F l).size) 0

theorem items_conv {R : Rt} {w : W} {k : Nat} (hn : Nested R w k) {e : CType} (hg : e.good = true) (hp : plain e = true) (hd : deep e ≤ k)
    (he : e.isArray = false) {blk off : Nat} : ∀ (js : List Nat), ∃ us,
    Convs R w (js.map fun j => itemAt w e blk (off + j * e.size)) us ∧ toJs us = js.map fun j => e.val (mem w blk (off + j * e.size) e.size)
  | [] => ⟨[], .nil, rfl⟩
  | j :: js => by
    obtain ⟨us, h1, h2⟩ := items_conv hn hg hp hd he (blk := blk) (off := off) js
    match e, hg, hp, hd, he with
    | .struct c F l, hg, hp, hd, _ =>
      obtain ⟨kvs, hc, hv⟩ := hn c F l blk (off + j * (CType.struct c F l).size) hg hp hd
      refine ⟨.dict kvs :: us, .struct rfl hc h1, ?_⟩
      simp only [toJs, h2, List.map_cons, toJ, hv, CType.val]
    | .int n s, _, _, _, _ =>
      refine ⟨_, .plain rfl h1, ?_⟩
      simp only [toJs, h2, List.map_cons, itemAt, toJ, CType.val, CType.size]
    | .float, _, _, _, _ =>
      refine ⟨_, .plain rfl h1, ?_⟩
      simp only [toJs, h2, List.map_cons, itemAt, toJ, CType.val, CType.size]
    | .char, _, _, _, _ =>
      refine ⟨_, .plain rfl h1, ?_⟩
      simp only [toJs, h2, List.map_cons, itemAt, toJ, CType.val, CType.size]
    | .array _ _, _, _, _, h => simp [CType.isArray] at h

theorem take_range (n m : Nat) (h : m ≤ n) : (List.range n).take m = List.range m := by
  rw [List.take_range, Nat.min_eq_left h]

theorem keep_le (k : Int) (n : Nat) : keep k n ≤ n := by
  unfold keep
  split <;> omega

/-- What one field adds. -/
theorem field_adds {R : Rt} {w : W} {k : Nat} (hn : Nested R w k) {x : Val} {c : PyStr} {F : Fields} {l : List (PyStr × PyStr)} {blk off : Nat}
    (hx : IsObj R w x F l blk off) (hg : (CType.struct c F l).good = true) (hp : plain (.struct c F l) = true)
    (hd : deeps F ≤ k) {name : PyStr} {o : Nat} {t : CType} (hl : F.lookup name 0 = some (o, t)) :
    ∃ new, Adds R w x name (fieldAt w t blk (off + o)) new ∧
      toJkvs new = (if isShown name t = true then
        [(name, fieldVal F l (mem w blk off (CType.struct c F l).size) name t (slot (mem w blk off (CType.struct c F l).size) o t))] else []) := by
  have hG := good_inv hg
  obtain ⟨hm, hgt, hin, -⟩ := hG.field (show place (.struct c F l) name = some (o, t) from hl)
  have hslot := mem_slot (w := w) (blk := blk) (off := off) hin
  have hpt : plain t = true := by
    simp only [plain, Bool.and_eq_true] at hp
    exact plains_mem 0 hp.2 _ hm
  have hdt : deep t ≤ k := Nat.le_trans (deeps_mem 0 _ hm) hd
  rw [hslot]
  have hfut : ∀ (hs : isStructure t = false), isShown name t = !isFuture name := by
    intro hs
    rw [isShown, hs, isFuture_eq]
    simp
  match t, hl, hm, hgt, hin, hpt, hdt, hfut with
  | .struct c' F' l', _, _, hgt, _, hpt, hdt, _ =>
    obtain ⟨kvs, hc, hv⟩ := hn c' F' l' blk (off + o) hgt hpt hdt
    refine ⟨_, .struct rfl hc, ?_⟩
    simp only [isShown, isStructure, Bool.true_or, if_true, fieldVal, toJkvs, toJ, hv]
  | .int n s, _, _, _, _, _, _, hfut =>
    rw [hfut rfl]
    cases hf : isFuture name with
    | true => exact ⟨_, .future rfl hf, rfl⟩
    | false => exact ⟨_, .int hf, by simp only [Bool.not_false, if_true, toJkvs, toJ, fieldVal, CType.size]⟩
  | .float, _, _, _, _, _, _, hfut =>
    rw [hfut rfl]
    cases hf : isFuture name with
    | true => exact ⟨_, .future rfl hf, rfl⟩
    | false => exact ⟨_, .float hf, by simp only [Bool.not_false, if_true, toJkvs, toJ, fieldVal, CType.size]⟩
  | .char, _, _, _, _, _, _, hfut =>
    rw [hfut rfl]
    cases hf : isFuture name with
    | true => exact ⟨_, .future rfl hf, rfl⟩
    | false => exact ⟨_, .bytes hf, by simp only [Bool.not_false, if_true, toJkvs, toJ, fieldVal, CType.size]⟩
  | .array e n, hl, _, hgt, _, hpt, hdt, hfut =>
    rw [hfut rfl]
    by_cases hch : e = .char
    · subst hch
      cases hf : isFuture name with
      | true => exact ⟨_, .future rfl hf, rfl⟩
      | false => exact ⟨_, .bytes hf, by simp only [Bool.not_false, if_true, toJkvs, toJ, fieldVal, CType.size, Nat.mul_one]⟩
    · have hfa : fieldAt w (.array e n) blk (off + o) = .view (.array e n) blk (off + o) := by
        unfold fieldAt itemAt
        cases e <;> first | rfl | exact absurd rfl hch
      rw [hfa]
      cases hf : isFuture name with
      | true => exact ⟨_, .future rfl hf, rfl⟩
      | false =>
        simp only [CType.good, Bool.and_eq_true, Bool.not_eq_true'] at hgt
        have hpe : plain e = true := by simpa [plain] using hpt
        have hde : deep e ≤ k := by simpa [deep] using hdt
        obtain ⟨us, hc, hv⟩ := items_conv hn hgt.2 hpe hde hgt.1 (blk := blk) (off := off + o)
          (List.range (shownCount F (mem w blk off (CType.struct c F l).size) l name n))
        refine ⟨[(name, .list us)], .array hf hch ?_ hc, ?_⟩
        · -- the limit
          unfold Limited
          have hall : ∀ q, q ≤ n → ((List.range q).map fun j => itemAt w e blk (off + o + j * e.size)) = (arrayItems w e n blk (off + o)).take q := by
            intro q hq
            unfold arrayItems
            rw [← List.map_take, take_range _ _ hq]
          have hlen : (arrayItems w e n blk (off + o)).length = n := by simp [arrayItems]
          rw [hx.lims]
          by_cases hlim : l = []
          · left
            subst hlim
            exact ⟨by simp, by rw [show shownCount F (mem w blk off (CType.struct c F []).size) [] name n = n from rfl, hall _ (Nat.le_refl n)]; exact List.take_of_length_le (by rw [hlen]; exact Nat.le_refl _)⟩
          · right
            refine ⟨l.map fun p => (p.1, .str p.2), by simp [hlim], ?_⟩
            have hlook : ∀ (l : List (PyStr × PyStr)), (l.map fun p => (p.1, Val.str p.2)).lookup name = (l.lookup name).map Val.str := by
              intro l
              induction l with
              | nil => rfl
              | cons p r ih =>
                rw [List.map_cons, List.lookup_cons, List.lookup_cons, ih]
                cases name == p.1 <;> rfl
            rw [hlook]
            cases hq : l.lookup name with
            | none =>
              left
              exact ⟨rfl, by
                have hs : shownCount F (mem w blk off (CType.struct c F l).size) l name n = n := by simp only [shownCount, hq]
                rw [hs, hall _ (Nat.le_refl n)]; exact List.take_of_length_le (by rw [hlen]; exact Nat.le_refl _)⟩
            | some lim =>
              right
              have hok := List.all_eq_true.mp hG.lims _ (lookup_mem hq)
              simp only [Bool.and_eq_true] at hok
              obtain ⟨-, hok⟩ := hok
              split at hok
              · rename_i o' n' s' hlook'
                simp only [Bool.and_eq_true, Bool.not_eq_true'] at hok
                have hin' := (hG.field (show place (.struct c F l) lim = some (o', .int n' s') from hlook')).2.2.1
                refine ⟨lim, Atop.intField F (mem w blk off (CType.struct c F l).size) lim, rfl, by intro he; simp [he] at hok, ?_, ?_⟩
                · rw [hx.attr _ _ _ hlook']
                  unfold Atop.intField
                  rw [hlook']
                  dsimp only
                  have := mem_slot (w := w) (blk := blk) (off := off) hin'
                  unfold slot at this
                  simp only [CType.size] at this
                  simp only [fieldAt, itemAt]
                  rw [← this]
                  rfl
                · rw [hall _ (by simp only [shownCount, hq]; exact keep_le _ _)]
                  simp only [shownCount, hq, sliceList, List.drop_zero, hlen, sliceBound_keep]
              · cases hok
        · simp only [Bool.not_false, if_true, toJkvs, toJ, hv]
          have hfv : ∀ (d : Bytes), fieldVal F l (mem w blk off (CType.struct c F l).size) name (.array e n) d =
              .list (((chunks d e.size n).take (shownCount F (mem w blk off (CType.struct c F l).size) l name n)).map fun b => e.val b) := by
            intro d
            unfold fieldVal
            cases e <;> first | rfl | exact absurd rfl hch
          rw [hfv]
          congr 3
          unfold chunks
          have hcle : shownCount F (mem w blk off (CType.struct c F l).size) l name n ≤ n := by
            unfold shownCount
            split
            · exact Nat.le_refl _
            · exact keep_le _ _
          rw [← List.map_take, take_range _ _ hcle, List.map_map]
          apply List.map_congr_left
          intro j hj
          have hj' : j < n := Nat.lt_of_lt_of_le (List.mem_range.mp hj) hcle
          simp only [Function.comp_apply]
          congr 1
          unfold chunk
          have hle : j * e.size + e.size ≤ n * e.size := by
            have := Nat.mul_le_mul_right e.size (show j + 1 ≤ n from hj')
            rwa [Nat.add_mul, Nat.one_mul] at this
          simp only [CType.size]
          rw [mem_mem hle]

/-! ## The loop over the fields -/

theorem field_loop {R : Rt} (hR : R.globals = (P).globals) {w : W} {k : Nat} (hn : Nested R w k) {x : Val} {c : PyStr} {F : Fields}
    {l : List (PyStr × PyStr)} {blk off : Nat} (hx : IsObj R w x F l blk off) (hg : (CType.struct c F l).good = true)
    (hp : plain (.struct c F l) = true) (hd : deeps F ≤ k) : ∀ (L : List (PyStr × Nat × CType)) (kvs : List (PyStr × Val)) (env : Env),
    (∀ p ∈ L, F.lookup p.1 0 = some p.2) → (L.map Prod.fst).Nodup → (∀ p ∈ L, p.1 ∉ kvs.map Prod.fst) →
    env "struct" = some x → env "struct_dict" = some (.dict kvs) →
    ∃ env' new, forList ["field"] (execBlock R GU none fieldBody) (L.map fun p => .tuple [.str p.1, .ctype p.2.2]) env w = .ret (.next, env') w ∧
      env' "struct_dict" = some (.dict (kvs ++ new)) ∧
      toJkvs new = L.filterMap (fun p => if isShown p.1 p.2.2 = true then
        some (p.1, fieldVal F l (mem w blk off (CType.struct c F l).size) p.1 p.2.2 (slot (mem w blk off (CType.struct c F l).size) p.2.1 p.2.2)) else none)
  | [], kvs, env, _, _, _, _, hsd => ⟨env, [], rfl, by simpa using hsd, rfl⟩
  | (name, o, t) :: L, kvs, env, hlk, hnd, hdis, hst, hsd => by
    have hl := hlk _ (List.mem_cons_self ..)
    obtain ⟨new, hadd, hnew⟩ := field_adds hn hx hg hp hd hl
    simp only [List.map_cons, List.nodup_cons] at hnd
    obtain ⟨env1, h1, hst1, hsd1⟩ := field_round (env := env.set "field" (.tuple [.str name, .ctype t])) hR (ty := .ctype t) hst hsd rfl
      (hdis _ (List.mem_cons_self ..)) (hx.attr _ _ _ hl) hadd
    have hkeys : ∀ q ∈ new.map Prod.fst, q = name := by
      intro q hq
      have : q ∈ (toJkvs new).map Prod.fst := by rw [toJkvs_map]; simpa using hq
      rw [hnew] at this
      split at this
      · simpa using this
      · simp at this
    obtain ⟨env2, new2, h2, hsd2, hnew2⟩ := field_loop hR hn hx hg hp hd L (kvs ++ new) env1
      (fun p hp => hlk p (List.mem_cons_of_mem _ hp)) hnd.2
      (by
        intro p hp hmem
        rw [List.map_append, List.mem_append] at hmem
        rcases hmem with hmem | hmem
        · exact hdis p (List.mem_cons_of_mem _ hp) hmem
        · exact hnd.1 (by rw [← hkeys _ hmem]; exact List.mem_map_of_mem hp))
      hst1 hsd1
    refine ⟨env2, new ++ new2, ?_, by rw [hsd2, List.append_assoc], ?_⟩
    · show ((execBlock R GU none fieldBody (env.set "field" (.tuple [.str name, .ctype t])) w).bind _) = _
      rw [h1]
      exact h2
    · rw [toJkvs_append, hnew, hnew2, List.filterMap_cons]
      dsimp only
      by_cases hs : isShown name t = true
      · simp only [hs, if_true, List.singleton_append]
      · simp only [hs, if_false, List.nil_append, Bool.false_eq_true]

/-- One call, the nested ones being known. -/
theorem conv_obj {k n : Nat} {w : W} (hn : Nested ((P).at n) w k) {x : Val} {c : PyStr} {F : Fields}
    {l : List (PyStr × PyStr)} {blk off : Nat} (hx : IsObj ((P).at n) w x F l blk off) (hg : (CType.struct c F l).good = true)
    (hp : plain (.struct c F l) = true) (hd : deeps F ≤ k) :
    ∃ kvs, Conv ((P).at (n + 1)) w x (.dict kvs) ∧ toJkvs kvs = F.vals F l (mem w blk off (CType.struct c F l).size) 0 := by
  have hG := good_inv hg
  have hnd : ((F.layout 0).map Prod.fst).Nodup := by
    have := hG.nodup
    rw [← layout_toList F 0, List.map_map] at this
    exact this
  have hmem : ∀ p ∈ F.layout 0, F.lookup p.1 0 = some p.2 := by
    intro p hp
    rw [lookup_layout]
    exact lookup_of_mem hnd hp
  obtain ⟨env', new, hloop, hsd, hnew⟩ := field_loop (Z := Z) (fs := fs) (args := args) (R := (P).at n) rfl hn hx hg hp hd (F.layout 0) []
    ((envOf [("struct", x)]).set "struct_dict" (.dict [])) hmem hnd (by simp) rfl rfl
  refine ⟨new, ?_, by rw [hnew, vals_eq]⟩
  unfold Conv
  rw [callFn_call (l := [("struct", x)]) rfl (by decide +kernel)]
  refine callBody_ret (env' := env') ?_
  rw [run_at]
  have e0 : eval ((P).at n) GU (.dict .nil) (envOf [("struct", x)]) w = (.ok (.dict []), w) := by simp only [eval, evalItems]; rfl
  show execBlock ((P).at n) GU none block![
    .assign (.name "struct_dict") (.dict .nil),
    .for ["field"] (.attr (.name "struct") py!"_fields_") fieldBody,
    .ret (.name "struct_dict")] (envOf [("struct", x)]) w = _
  rw [block_next (exec_assign e0)]
  have ef : eval ((P).at n) GU (.attr (.name "struct") py!"_fields_") ((envOf [("struct", x)]).set "struct_dict" (.dict [])) w = (.ok (fieldsVal F), w) :=
    (eval_attr (eval_name rfl)).trans hx.fields
  have hit : items (fieldsVal F) w = (.ok ((F.layout 0).map fun p => .tuple [.str p.1, .ctype p.2.2]), w) := by
    unfold fieldsVal
    rw [← layout_toList F 0, List.map_map]
    rfl
  rw [block_next ((exec_for_list ef (by intros; simp [fieldsVal]) hit).trans hloop)]
  exact block_ret (exec_ret (eval_name hsd))

theorem nested_all (w : W) : ∀ (n : Nat), Nested ((P).at n) w n
  | 0 => by
    intro c F l blk off _ _ hd
    simp [deep] at hd
  | n + 1 => by
    intro c F l blk off hg hp hd
    have hd' : deeps F ≤ n := by simp only [deep] at hd; omega
    obtain ⟨kvs, h1, h2⟩ := conv_obj (nested_all w n) (isObj_view (blk := blk) (off := off) hp) hg hp hd'
    exact ⟨kvs, h1, h2⟩

/-! ## Headers -/

theorem isObj_hdr {n : Nat} {w : W} {i : Nat} {o : HObj} (ho : w.headers[i]? = some (embH o)) (hc : o.cls ∈ versions) :
    IsObj ((P).at n) w (.hdr i) o.cls.fields [] o.blk 0 := by
  have h1 := plain_none _ hc py!"_fields_" (by decide)
  have h2 := plain_none _ hc py!"fields_limiters" (by decide)
  have ha : ∀ (a : PyStr), a = py!"_fields_" ∨ a = py!"fields_limiters" → (attrsOf o.cache).lookup a = none := by
    rintro a (rfl | rfl) <;> cases o.cache <;> rfl
  refine ⟨?_, ?_, ?_⟩
  · refine (hdr_plain ho h1 rfl).trans ?_
    show (match (attrsOf o.cache).lookup py!"_fields_" with | some v => _ | none => _) = _
    rw [ha _ (Or.inl rfl)]
    rfl
  · intro a off t hl
    have hl' : (embH o).cls.fields.lookup a 0 = some (off, t) := hl
    simp only [attrOf, hdrAttr, ho, hl', Nat.zero_add]
    rfl
  · refine (hdr_plain ho h2 rfl).trans ?_
    show (match (attrsOf o.cache).lookup py!"fields_limiters" with | some v => _ | none => _) = _
    rw [ha _ (Or.inr rfl)]
    rfl

/-! ## cgroups -/

theorem conv_group {n : Nat} {w : W} {g : Obj.Group} {c : PyStr} {F : Fields} {l : List (PyStr × PyStr)} {k : Nat}
    (hc : g.cstat.ty = .struct c F l) (hp : g.proclist.ty = .array pid_t k) (hg : (CType.struct c F l).good = true)
    (hpl : plain (.struct c F l) = true) (hd : deep (.struct c F l) ≤ n) :
    ∃ kvs, Conv ((P).at (n + 1)) w (groupVal g) (.dict [(py!"cstat", .dict kvs), (py!"proclist", .list (arrayItems w pid_t k g.proclist.blk 0))]) ∧
      toJkvs kvs = F.vals F l (mem w g.cstat.blk 0 (CType.struct c F l).size) 0 := by
  obtain ⟨kvs, h1, h2⟩ := nested_all (Z := Z) (fs := fs) (args := args) w n c F l g.cstat.blk 0 hg hpl hd
  refine ⟨kvs, ?_, h2⟩
  have hcv : refVal g.cstat = .view (.struct c F l) g.cstat.blk 0 := by rw [refVal, hc]
  have hpv : refVal g.proclist = .view (.array pid_t k) g.proclist.blk 0 := by rw [refVal, hp]
  have hgv : groupVal g = .inst py!"CGChainer" [(py!"cstat", .view (.struct c F l) g.cstat.blk 0), (py!"proclist", .view (.array pid_t k) g.proclist.blk 0)] := by
    rw [groupVal, hcv, hpv]
  rw [hgv]
  generalize hx : Val.inst py!"CGChainer" [(py!"cstat", .view (.struct c F l) g.cstat.blk 0), (py!"proclist", .view (.array pid_t k) g.proclist.blk 0)] = x
  have hf : attrOf ((P).at n) x py!"_fields_" w = (.ok (.list [.tuple [.str py!"cstat", .ctype V2_11.CStat], .tuple [.str py!"proclist", .builtin .array]]), w) := by
    subst hx; rfl
  have ha1 : attrOf ((P).at n) x py!"cstat" w = (.ok (.view (.struct c F l) g.cstat.blk 0), w) := by subst hx; rfl
  have ha2 : attrOf ((P).at n) x py!"proclist" w = (.ok (.view (.array pid_t k) g.proclist.blk 0), w) := by subst hx; rfl
  have hl : attrOf ((P).at n) x py!"fields_limiters" w = (.error (.sys .attributeError), w) := by subst hx; rfl
  have hcs : Convs ((P).at n) w (arrayItems w pid_t k g.proclist.blk 0) (arrayItems w pid_t k g.proclist.blk 0) := by
    unfold arrayItems
    induction List.range k with
    | nil => exact .nil
    | cons j js ih => exact .plain rfl ih
  obtain ⟨env1, r1, s1, d1⟩ := field_round (Z := Z) (fs := fs) (args := args) (R := (P).at n) (name := py!"cstat") (kvs := []) (ty := .ctype V2_11.CStat)
    (env := ((envOf [("struct", x)]).set "struct_dict" (.dict [])).set "field" (.tuple [.str py!"cstat", .ctype V2_11.CStat]))
    rfl rfl rfl rfl (by simp) ha1 (.struct rfl h1)
  obtain ⟨env2, r2, s2, d2⟩ := field_round (Z := Z) (fs := fs) (args := args) (R := (P).at n) (name := py!"proclist") (kvs := [(py!"cstat", .dict kvs)])
    (ty := .builtin .array) (env := env1.set "field" (.tuple [.str py!"proclist", .builtin .array]))
    rfl s1 d1 rfl (by simp) ha2 (.array (by decide) (by simp [pid_t, c_int]) (Or.inl ⟨hl, rfl⟩) hcs)
  unfold Conv
  rw [callFn_call (l := [("struct", x)]) rfl (by decide +kernel)]
  refine callBody_ret (env' := env2) ?_
  rw [run_at]
  have e0 : eval ((P).at n) GU (.dict .nil) (envOf [("struct", x)]) w = (.ok (.dict []), w) := by simp only [eval, evalItems]; rfl
  show execBlock ((P).at n) GU none block![
    .assign (.name "struct_dict") (.dict .nil),
    .for ["field"] (.attr (.name "struct") py!"_fields_") fieldBody,
    .ret (.name "struct_dict")] (envOf [("struct", x)]) w = _
  rw [block_next (exec_assign e0)]
  have ef : eval ((P).at n) GU (.attr (.name "struct") py!"_fields_") ((envOf [("struct", x)]).set "struct_dict" (.dict [])) w = _ :=
    (eval_attr (eval_name rfl)).trans hf
  have hloop : forList ["field"] (execBlock ((P).at n) GU none fieldBody) [.tuple [.str py!"cstat", .ctype V2_11.CStat], .tuple [.str py!"proclist", .builtin .array]]
      ((envOf [("struct", x)]).set "struct_dict" (.dict [])) w = .ret (.next, env2) w := by
    show ((execBlock ((P).at n) GU none fieldBody (((envOf [("struct", x)]).set "struct_dict" (.dict [])).set "field" (.tuple [.str py!"cstat", .ctype V2_11.CStat])) w).bind _) = _
    rw [r1]
    show ((execBlock ((P).at n) GU none fieldBody (env1.set "field" (.tuple [.str py!"proclist", .builtin .array])) w).bind _) = _
    rw [r2]
    rfl
  rw [block_next ((exec_for_list ef (by intros; simp) rfl).trans hloop)]
  exact block_ret (exec_ret (eval_name d2))

/-- Classes nest at most this deep. -/
theorem classes_deep : classes.all (fun t => decide (deep t ≤ 4)) = true := by decide +kernel

end Atop.Src
