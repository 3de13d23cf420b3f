import Verif.Proofs.SourceRead
import Verif.Proofs.FloatRepr
/-!
# `generate_statistics`, from its text
-/

namespace Atop.Src
open Spec
set_option maxRecDepth 20000

/-! ### The version as text, read back -/

theorem str_nodot (n : Nat) : 46 ∉ pyStrNat n := by
  intro h
  have := (pyStrNat_digits n).2 46 h
  revert this
  unfold isDigit
  decide

theorem parse_str (n : Nat) : pyParseNat (pyStrNat n) = .ok n := by
  have hd := pyStrNat_digits n
  unfold pyParseNat
  have h1 : (pyStrNat n).isEmpty = false := by
    cases h : pyStrNat n with
    | nil => exact absurd h hd.1
    | cons => rfl
  have h2 : ((pyStrNat n).any fun c => decide (c < 48) || decide (57 < c)) = false := by
    rw [List.any_eq_false]
    intro c hc
    have := hd.2 c hc
    unfold isDigit at this
    simp only [Bool.or_eq_true, decide_eq_true_eq]
    omega
  rw [h1, h2]
  have e : (pyStrNat n).foldl (fun acc c => acc * 10 + (c - 48)) 0 = digitsNat (pyStrNat n) := by
    unfold digitsNat
    congr 1
    funext a c
    omega
  show Except.ok _ = _
  rw [e, digitsNat_pyStrNat]

theorem split_version (v : Nat × Nat) : splitDot (versionString v) = [pyStrNat v.1, pyStrNat v.2] := by
  unfold versionString
  show splitDot (pyStrNat v.1 ++ [46] ++ pyStrNat v.2) = _
  rw [List.append_assoc]
  show splitDot (pyStrNat v.1 ++ 46 :: pyStrNat v.2) = _
  rw [splitDot_append _ _ (str_nodot _), splitDot_nodot _ (str_nodot _)]

theorem parsed_ok {h : Header} {v : Nat × Nat} (hv : h.version = .ok v) : Atop.parsedVersion h = .ok v := by
  unfold Atop.parsedVersion Header.semanticVersion
  rw [hv]
  show (match (splitDot (versionString v)).take 2 with
    | [a, b] => (do return (← pyParseNat a, ← pyParseNat b) : Except Exc (Nat × Nat))
    | _ => .error (.valueError .badInt)) = _
  rw [split_version]
  show (do return (← pyParseNat (pyStrNat v.1), ← pyParseNat (pyStrNat v.2)) : Except Exc (Nat × Nat)) = _
  rw [parse_str, parse_str]
  rfl

/-! ### Headers stay -/

/-- Header objects stay, with their class, and the file stays one of the library. -/
def Safe {α : Type} (m : M α) : Prop :=
  ∀ w, (LibFile w.file → LibFile (m w).2.file) ∧ ∀ i c, Sees w i c → Sees (m w).2 i c

theorem Keeps.safe {α : Type} {m : M α} (h : Keeps m) : Safe m := by
  intro w
  refine ⟨?_, fun i c hs => Sees.keep h (r := (m w).1) (w' := (m w).2) rfl hs⟩
  intro hl e he
  exact hl e (by rw [← (h w).2]; exact he)

theorem Safe.to {α : Type} {m : M α} (h : Safe m) {w w' : World} {r : Except Exc α} {i : Nat} {c : HeaderClass}
    (hm : m w = (r, w')) (hs : Sees w i c) : Sees w' i c := by
  have := (h w).2 i c hs
  rwa [hm] at this

theorem Safe.lib {α : Type} {m : M α} (h : Safe m) {w w' : World} {r : Except Exc α}
    (hm : m w = (r, w')) (hs : LibFile w.file) : LibFile w'.file := by
  have := (h w).1 hs
  rwa [hm] at this

theorem Safe.bind {α β : Type} {m : M α} {k : α → M β} (hm : Safe m) (hk : ∀ a, Safe (k a)) : Safe (m >>= k) := by
  intro w
  rw [M.bind_eq]
  rcases h : m w with ⟨(e | a), w'⟩
  · exact ⟨hm.lib h, fun i c hs => hm.to h hs⟩
  · exact ⟨fun hl => (hk a w').1 (hm.lib h hl), fun i c hs => (hk a w').2 i c (hm.to h hs)⟩

theorem Safe.latch (j : Nat) : Safe (M.latch j) := by
  intro w
  cases hh : w.header j with
  | none =>
    have : M.latch j w = (.ok (), w) := by unfold M.latch; rw [hh]; cases w.headers[j]? <;> rfl
    rw [this]; exact ⟨id, fun _ _ => id⟩
  | some h =>
    obtain ⟨o, h1, -⟩ := header_some hh
    rw [latch_eq hh h1]
    refine ⟨id, ?_⟩
    intro i c hs
    refine ⟨hs.1, ?_⟩
    obtain ⟨-, o', ho', hc⟩ := hs
    by_cases hij : j = i
    · subst hij
      rw [h1] at ho'; cases ho'
      exact ⟨_, set_get h1, hc⟩
    · exact ⟨o', by show (w.headers.set j _)[i]? = _; rw [List.getElem?_set_ne hij]; exact ho', hc⟩

theorem Safe.newHeader (o : HObj) : Safe (M.newHeader o) := by
  intro w
  refine ⟨id, ?_⟩
  intro i c hs
  obtain ⟨hl, o', ho', hc⟩ := hs
  refine ⟨hl, o', ?_, hc⟩
  show (w.headers ++ [o])[i]? = _
  rw [List.getElem?_append_left (List.getElem?_eq_some_iff.mp ho').1]; exact ho'

theorem Safe.record (i : Nat) : Safe (Obj.getRecord i) := by
  unfold Obj.getRecord M.readNew
  refine Safe.bind (Keeps.header _).safe fun h => ?_
  simp only [M.bind_assoc, readinto_bind, M.pure_bind]
  exact Safe.bind (Keeps.alloc _).safe fun _ => Safe.bind (Keeps.readintoN _).safe fun _ => (Keeps.pure _).safe

theorem Safe.sstat (Z : Zlib) (i : Nat) (x : Ref) : Safe (Obj.getSStat Z i x) :=
  Safe.bind (Keeps.inst _).safe fun _ => Safe.bind (Keeps.lift _).safe fun _ => Safe.bind (Keeps.read _).safe fun _ =>
    Safe.bind (Keeps.lift _).safe fun _ => Safe.bind (Keeps.header _).safe fun _ => (Keeps.copy _ _).safe

theorem Keeps.tstatLoop (t : CType) (d : Bytes) (len : Int) : ∀ k j, Keeps (Obj.tstatLoop t d len k j)
  | 0, _ => Keeps.pure _
  | k + 1, _ => Keeps.bind (Keeps.copy _ _) fun _ => Keeps.bind (Keeps.tstatLoop t d len k _) fun _ => Keeps.pure _

theorem Safe.tstat (Z : Zlib) (i : Nat) (x : Ref) : Safe (Obj.getTStat Z i x) :=
  Safe.bind (Keeps.inst _).safe fun _ => Safe.bind (Keeps.lift _).safe fun _ => Safe.bind (Keeps.read _).safe fun _ =>
    Safe.bind (Keeps.lift _).safe fun _ => Safe.bind (Keeps.inst _).safe fun _ => Safe.bind (Keeps.lift _).safe fun _ =>
    Safe.bind (Keeps.header _).safe fun _ => Safe.bind (Keeps.lift _).safe fun _ => Safe.bind (Safe.latch _) fun _ =>
    Safe.bind (Keeps.header _).safe fun _ => Safe.bind (Keeps.lift _).safe fun _ => (Keeps.tstatLoop _ _ _ _ _).safe

theorem Keeps.cstatLoop (t : CType) (d pids : Bytes) (len : Int) : ∀ k cs ps, Keeps (Obj.cstatLoop t d pids len k cs ps)
  | 0, _, _ => Keeps.pure _
  | k + 1, cs, ps => by
    rw [cstatLoop_eq]
    exact Keeps.bind (Keeps.round _ _ _ _ _ _) fun _ => Keeps.bind (Keeps.cstatLoop t d pids len k _ _) fun _ => Keeps.pure _

theorem Safe.cstat (Z : Zlib) (i : Nat) (x : Ref) : Safe (Obj.getCStat Z i x) := by
  refine Safe.bind (Keeps.inst _).safe fun _ => Safe.bind (Keeps.lift _).safe fun _ => Safe.bind (Keeps.read _).safe fun _ =>
    Safe.bind (Keeps.lift _).safe fun _ => Safe.bind (Keeps.inst _).safe fun _ => Safe.bind (Keeps.lift _).safe fun _ =>
    Safe.bind (Keeps.read _).safe fun _ => Safe.bind (Keeps.lift _).safe fun _ => Safe.bind (Keeps.header _).safe fun h =>
    Safe.bind (Keeps.lift _).safe fun _ => Safe.bind (Keeps.inst _).safe fun _ => Safe.bind (Keeps.lift _).safe fun _ => ?_
  cases h.cls.CStat with
  | some t => exact (Keeps.cstatLoop _ _ _ _ _ _ _).safe
  | none =>
    dsimp only
    split
    · exact (Keeps.pure _).safe
    · exact (Keeps.lift _).safe

theorem Safe.sample (Z : Zlib) (i : Nat) (v : Nat × Nat) : Safe (Obj.readSample Z i v) := by
  refine Safe.bind (Safe.record i) fun x => Safe.bind (Keeps.inst _).safe fun _ => Safe.bind (Keeps.lift _).safe fun _ => ?_
  split
  · exact (Keeps.pure _).safe
  · refine Safe.bind (Safe.sstat Z i x) fun _ => Safe.bind (Safe.tstat Z i x) fun _ => ?_
    dsimp only
    split
    · exact Safe.bind (Safe.cstat Z i x) fun _ => (Keeps.pure _).safe
    · exact Safe.bind (Keeps.pure _).safe fun _ => (Keeps.pure _).safe

theorem Safe.check (b : Bool) (j : Nat) : Safe (checkEnd b j) := by
  unfold checkEnd
  split
  · exact Safe.bind (Keeps.header _).safe fun _ => Safe.bind (Safe.latch _) fun _ => Safe.bind (Keeps.lift _).safe fun _ => (Keeps.pure _).safe
  · exact (Keeps.pure _).safe

theorem Safe.getHeader (b : Bool) : Safe (Obj.getHeader b) := by
  rw [getHeader_eq]
  refine Safe.bind (Keeps.alloc _).safe fun _ => Safe.bind (Safe.newHeader _) fun _ => Safe.bind (Keeps.readintoN _).safe fun _ => ?_
  refine Safe.bind (Keeps.header _).safe fun _ => Safe.bind (Keeps.lift _).safe fun _ => ?_
  split
  · exact (Keeps.lift _).safe
  · refine Safe.bind (Keeps.lift _).safe fun _ => Safe.bind (Safe.latch _) fun _ => ?_
    split
    · split
      · split
        · exact Safe.bind (Keeps.lift _).safe fun _ => Safe.check _ _
        · exact Safe.bind (Safe.newHeader _) fun _ => Safe.check _ _
      · exact Safe.bind (Keeps.pure _).safe fun _ => Safe.check _ _
    · exact Safe.bind (Keeps.pure _).safe fun _ => Safe.check _ _

/-- What holds after `m` if it gives a value. -/
def Post {α : Type} (m : M α) (Q : α → World → Prop) (w : World) : Prop := ∀ a w', m w = (.ok a, w') → Q a w'

theorem Post.bind {α β : Type} {m : M α} {k : α → M β} {Q : β → World → Prop} {w : World}
    (h : Post m (fun a w' => Post (k a) Q w') w) : Post (m >>= k) Q w := by
  intro b w2 hb
  rw [M.bind_eq] at hb
  rcases hm : m w with ⟨(e | a), w1⟩
  · rw [hm] at hb; cases hb
  · rw [hm] at hb; exact h a w1 hm b w2 hb

/-- The header `get_header` gives is an object of a supported class. -/
theorem getHeader_sees {w w' : World} {j : Nat} {b : Bool} (hl : LibFile w.file) (h : Obj.getHeader b w = (.ok j, w')) :
    ∃ c ∈ versions, Sees w' j c := by
  have hd : defaultHeader ∈ versions := by simp [versions, defaultHeader]
  have key : Post (Obj.getHeader b) (fun j w' => ∃ c ∈ versions, Sees w' j c) w := by
    have hchk : ∀ j w, (∃ c ∈ versions, Sees w j c) → Post (checkEnd b j) (fun j w' => ∃ c ∈ versions, Sees w' j c) w := by
      intro j w ⟨c, hc, hs⟩ j' w' hj
      have hj' : j' = j := by
        unfold checkEnd at hj
        split at hj
        · rw [M.bind_eq] at hj
          rcases hm : M.header j w with ⟨(e | a), w1⟩
          · rw [hm] at hj; cases hj
          · rw [hm] at hj; dsimp only at hj
            rw [M.bind_eq] at hj
            rcases hm2 : M.latch j w1 with ⟨(e | u), w2⟩
            · rw [hm2] at hj; cases hj
            · rw [hm2] at hj; dsimp only at hj
              rw [M.bind_eq] at hj
              rcases hm3 : M.lift a.checkCompatibility w2 with ⟨(e | u), w3⟩
              · rw [hm3] at hj; cases hj
              · rw [hm3] at hj; cases hj; rfl
        · cases hj; rfl
      subst hj'
      exact ⟨c, hc, (Safe.check b j').to hj hs⟩
    rw [getHeader_eq]
    refine Post.bind fun blk w1 h1 => Post.bind fun i w2 h2 => Post.bind fun _ w3 h3 => ?_
    have hs2 : Sees w2 i defaultHeader := by
      cases h1; cases h2
      exact ⟨hl, _, List.getElem?_concat_length, rfl⟩
    have hs3 := (Keeps.readintoN _).safe.to h3 hs2
    refine Post.bind fun h0 w4 h4 => Post.bind fun m w5 h5 => ?_
    have hs5 := (Keeps.lift _).safe.to h5 ((Keeps.header _).safe.to h4 hs3)
    dsimp only
    split
    · intro a w' hh; cases hh
    · refine Post.bind fun s w6 h6 => Post.bind fun _ w7 h7 => ?_
      have hs7 := (Safe.latch _).to h7 ((Keeps.lift _).safe.to h6 hs5)
      dsimp only
      split
      · split
        · rename_i c hcv
          split
          · refine Post.bind fun _ _ hh => ?_
            cases hh
          · refine Post.bind fun j w8 h8 => hchk j w8 ⟨c, byVersion_mem hcv, ?_⟩
            cases h8
            exact ⟨hs7.1, _, List.getElem?_concat_length, rfl⟩
        · refine Post.bind fun j w8 h8 => ?_
          cases h8
          exact hchk i _ ⟨_, hd, hs7⟩
      · refine Post.bind fun j w8 h8 => ?_
        cases h8
        exact hchk i _ ⟨_, hd, hs7⟩
  exact key j w' h

/-! ### One round of the loop -/

section
variable {Z : Zlib} {fs : FileSystem} {args : CommandLine} {out : PyStr} {w : World} {i : Nat} {c : HeaderClass} {n : Nat}
  {env : Env} {rot : Bool} {v : Nat × Nat}

local notation "P" => program Z fs args
local notation "GU" => Rt.globals (program Z fs args) py!"atoparser.utils"

/-- The variables of `generate_statistics` in its loop. -/
structure GVars (i : Nat) (v : Nat × Nat) (rot : Bool) (env : Env) : Prop where
  file : env "raw_file" = some .file
  header : env "header" = some (.hdr i)
  rot : env "raise_on_truncation" = some (.bool rot)
  major : env "major" = some (.int v.1)
  minor : env "minor" = some (.int v.2)

theorem GVars.set (h : GVars i v rot env) {x : String} (a : Val)
    (hx : x ≠ "raw_file" ∧ x ≠ "header" ∧ x ≠ "raise_on_truncation" ∧ x ≠ "major" ∧ x ≠ "minor") : GVars i v rot (env.set x a) := by
  have key : ∀ y, x ≠ y → (env.set x a) y = env y := by
    intro y hy
    unfold Env.set
    rw [if_neg (fun h => hy h.symm)]
  exact ⟨(key _ hx.1).trans h.file, (key _ hx.2.1).trans h.header, (key _ hx.2.2.1).trans h.rot, (key _ hx.2.2.2.1).trans h.major,
    (key _ hx.2.2.2.2).trans h.minor⟩

/-- How a step ends, when the model ends with `r`: as `F` says, or with the exception and variables as `I` says. -/
def Steps {α : Type} (out : PyStr) (I : Env → Prop) (F : α → World → Co (Ctl × Env) → Prop) (x : Co (Ctl × Env))
    (r : Except Exc α × World) : Prop :=
  match r with
  | (.ok a, w) => F a w x
  | (.error e, w) => ∃ env, I env ∧ x = .ret (.exc (embExc e), env) (emb out w)

theorem steps_assign {α β : Type} {R : Rt} {G : PyStr → Option Val} {cur : Option PExc} {x : String} {e : Expr} {r : Block} {g : α → Val}
    {I : Env → Prop} {F : β → World → Co (Ctl × Env) → Prop} {m : M α} {k : α → M β} (hi : I env)
    (h : eval R G e env (emb out w) = embR out g (m w))
    (hk : ∀ a w', m w = (.ok a, w') → Steps out I F (execBlock R G cur r (env.set x (g a)) (emb out w')) (k a w')) :
    Steps out I F (execBlock R G cur (.cons (.assign (.name x) e) r) env (emb out w)) ((m >>= k) w) := by
  rw [M.bind_eq]
  rcases hm : m w with ⟨(e | a), w'⟩
  · rw [hm] at h
    exact ⟨env, hi, block_exc (exec_assign_err h)⟩
  · rw [hm] at h
    have := hk a w' hm
    rw [block_next (exec_assign h)]
    exact this

/-- The body of the loop (atoparser/utils.py:114-124). -/
def genBody : Block := block![
  .assign (.name "record") (.call (.glob py!"get_record") exprs![(.name "raw_file"), (.name "header")] .nil),
  .ifte (.cmp .ltE (.attr (.name "record") py!"scomplen") (.const (.int 0))) block![
    .brk] block![],
  .assign (.name "sstat") (.call (.glob py!"get_sstat") exprs![(.name "raw_file"), (.name "header"), (.name "record")] .nil),
  .assign (.name "tstats") (.call (.glob py!"get_tstat") exprs![(.name "raw_file"), (.name "header"), (.name "record")] .nil),
  .ifte (.and (.cmp .gtE (.name "major") (.const (.int 2))) (.cmp .gtE (.name "minor") (.const (.int 11)))) block![
    .assign (.name "cgroups") (.call (.glob py!"get_cstat") exprs![(.name "raw_file"), (.name "header"), (.name "record")] .nil)] block![
    .assign (.name "cgroups") (.list exprs![])],
  .yield (.tuple exprs![(.name "record"), (.name "sstat"), (.name "tstats"), (.name "cgroups")])]

theorem eval_record (hs : Sees w i c) (hc : c ∈ versions) (hv : GVars i v rot env) :
    eval ((P).at (n + 3)) GU (.call (.glob py!"get_record") exprs![(.name "raw_file"), (.name "header")] .nil) env (emb out w) =
      embR out refVal (Obj.getRecord i w) := by
  have hfn : eval ((P).at (n + 3)) GU (.glob py!"get_record") env (emb out w) =
      (.ok (.fn py!"atoparser.utils" Text.Utils.get_record []), emb out w) := eval_glob rfl
  rw [eval_call hfn (evals_cons (eval_name hv.file) (evals_one (eval_name hv.header))) evalKws_nil]
  exact call_ends (ds := []) (as := [.file, .hdr i]) (kws := []) (l := [("raw_file", .file), ("header", .hdr i)]) rfl (by decide +kernel) (run_get_record hs hc)

theorem eval_sstat {x : Ref} (hs : Sees w i c) (hc : c ∈ versions) (hx : ∃ c ∈ versions, x.ty = c.Record) (hv : GVars i v rot env)
    (hr : env "record" = some (refVal x)) :
    eval ((P).at (n + 3)) GU (.call (.glob py!"get_sstat") exprs![(.name "raw_file"), (.name "header"), (.name "record")] .nil) env (emb out w) =
      embR out refVal (Obj.getSStat Z i x w) := by
  have hfn : eval ((P).at (n + 3)) GU (.glob py!"get_sstat") env (emb out w) =
      (.ok (.fn py!"atoparser.utils" Text.Utils.get_sstat []), emb out w) := eval_glob rfl
  rw [eval_call hfn (evals_cons (eval_name hv.file) (evals_cons (eval_name hv.header) (evals_one (eval_name hr)))) evalKws_nil]
  exact call_ends (ds := []) (as := [.file, .hdr i, refVal x]) (kws := []) (l := [("raw_file", .file), ("header", .hdr i), ("record", refVal x)]) rfl (by decide +kernel) (run_get_sstat hs hc hx)

theorem eval_tstat {x : Ref} (hs : Sees w i c) (hc : c ∈ versions) (hx : ∃ c ∈ versions, x.ty = c.Record) (hv : GVars i v rot env)
    (hr : env "record" = some (refVal x)) :
    eval ((P).at (n + 3)) GU (.call (.glob py!"get_tstat") exprs![(.name "raw_file"), (.name "header"), (.name "record")] .nil) env (emb out w) =
      embR out (fun a => .list (a.map refVal)) (Obj.getTStat Z i x w) := by
  have hfn : eval ((P).at (n + 3)) GU (.glob py!"get_tstat") env (emb out w) =
      (.ok (.fn py!"atoparser.utils" Text.Utils.get_tstat []), emb out w) := eval_glob rfl
  rw [eval_call hfn (evals_cons (eval_name hv.file) (evals_cons (eval_name hv.header) (evals_one (eval_name hr)))) evalKws_nil]
  exact call_ends (ds := []) (as := [.file, .hdr i, refVal x]) (kws := []) (l := [("raw_file", .file), ("header", .hdr i), ("record", refVal x)]) rfl (by decide +kernel) (run_get_tstat hs hc hx)

theorem eval_cstat {x : Ref} (hs : Sees w i c) (hc : c ∈ versions) (hx : ∃ c ∈ versions, x.ty = c.Record) (hv : GVars i v rot env)
    (hr : env "record" = some (refVal x)) :
    eval ((P).at (n + 3)) GU (.call (.glob py!"get_cstat") exprs![(.name "raw_file"), (.name "header"), (.name "record")] .nil) env (emb out w) =
      embR out (fun a => .list (a.map groupVal)) (Obj.getCStat Z i x w) := by
  have hfn : eval ((P).at (n + 3)) GU (.glob py!"get_cstat") env (emb out w) =
      (.ok (.fn py!"atoparser.utils" Text.Utils.get_cstat []), emb out w) := eval_glob rfl
  rw [eval_call hfn (evals_cons (eval_name hv.file) (evals_cons (eval_name hv.header) (evals_one (eval_name hr)))) evalKws_nil]
  exact call_ends (ds := []) (as := [.file, .hdr i, refVal x]) (kws := []) (l := [("raw_file", .file), ("header", .hdr i), ("record", refVal x)]) rfl (by decide +kernel) (run_get_cstat (n := n + 1) hs hc hx)

/-- `major >= 2 and minor >= 11` -/
theorem eval_cgroups (hv : GVars i v rot env) {R : Rt} {G : PyStr → Option Val} {w : W} :
    eval R G (.and (.cmp .gtE (.name "major") (.const (.int 2))) (.cmp .gtE (.name "minor") (.const (.int 11)))) env w =
      (.ok (.bool (decide (v.1 ≥ 2 ∧ v.2 ≥ 11))), w) := by
  have h1 : eval R G (.cmp .gtE (.name "major") (.const (.int 2))) env w = (.ok (.bool (decide ((v.1 : Int) ≥ 2))), w) :=
    (eval_cmp (eval_name hv.major) (eval_const _ _ _)).trans rfl
  have h2 : eval R G (.cmp .gtE (.name "minor") (.const (.int 11))) env w = (.ok (.bool (decide ((v.2 : Int) ≥ 11))), w) :=
    (eval_cmp (eval_name hv.minor) (eval_const _ _ _)).trans rfl
  by_cases h : (v.1 : Int) ≥ 2
  · rw [eval_and_true h1 (by simpa [truth] using h), h2]
    have : ((v.2 : Int) ≥ 11) ↔ (v.1 ≥ 2 ∧ v.2 ≥ 11) := by omega
    simp only [this]
  · rw [eval_and_false h1 (by simpa [truth] using h)]
    have : ((v.1 : Int) ≥ 2) ↔ (v.1 ≥ 2 ∧ v.2 ≥ 11) := by omega
    simp only [this]

theorem record_ty {x : Ref} {w' : World} (hs : Sees w i c) (h : Obj.getRecord i w = (.ok x, w')) : x.ty = c.Record := by
  have key : Post (Obj.getRecord i) (fun x _ => x.ty = c.Record) w := by
    refine Post.bind fun h w1 h1 => Post.bind fun blk w2 _ => ?_
    intro x w' hx
    cases hx
    obtain ⟨h', hh, hc⟩ := hs.header
    rw [header_get hh] at h1
    cases h1
    show h.cls.Record = _
    rw [hc]
  exact key x w' h

/-- How a round ends. -/
def RoundEnd (out : PyStr) (I : Env → Prop) (a : Option Obj.Tuple) (w : World) (x : Co (Ctl × Env)) : Prop :=
  ∃ env, I env ∧ match a with
  | none => x = .ret (.brk, env) (emb out w)
  | some t => x = .yield (tupleVal t) (emb out w) (resumed env)

/-- `readSample` after the record has been read. -/
def sampleRest (Z : Zlib) (i : Nat) (v : Nat × Nat) (record : Ref) : M (Option Obj.Tuple) :=
  attrM record py!"scomplen" >>= fun n =>
    if n ≤ 0 then pure none
    else Obj.getSStat Z i record >>= fun sstat => Obj.getTStat Z i record >>= fun tstats =>
      (if v.1 ≥ 2 ∧ v.2 ≥ 11 then Obj.getCStat Z i record else pure []) >>= fun cgroups =>
      pure (some { record, sstat, tstats, cgroups })

theorem readSample_eq : Obj.readSample Z i v = (Obj.getRecord i >>= fun record => sampleRest Z i v record) := by
  unfold Obj.readSample sampleRest attrM
  simp only [M.bind_assoc]
  congr 1; funext record; congr 1; funext r; congr 1; funext n
  split
  · rfl
  · congr 1; funext sstat; congr 1; funext tstats
    split <;> rfl

theorem gen_round (hs : Sees w i c) (hc : c ∈ versions) (hv : GVars i v rot env) :
    Steps out (GVars i v rot) (RoundEnd out (GVars i v rot)) (execBlock ((P).at (n + 3)) GU none genBody env (emb out w))
      (Obj.readSample Z i v w) := by
  rw [readSample_eq]
  unfold genBody
  refine steps_assign hv (eval_record hs hc hv) ?_
  intro x w1 hw1
  have hx : ∃ c ∈ versions, x.ty = c.Record := ⟨c, hc, record_ty hs hw1⟩
  have hs1 := (Safe.record i).to hw1 hs
  have hv1 : GVars i v rot (env.set "record" (refVal x)) := hv.set _ (by decide)
  have hr1 : (env.set "record" (refVal x)) "record" = some (refVal x) := rfl
  generalize env.set "record" (refVal x) = env1 at hv1 hr1
  unfold sampleRest
  have hat := (eval_attr (R := (P).at (n + 3)) (G := GU) (eval_name hr1)).trans
    (view_attr (R := (P).at (n + 3)) (out := out) (w := w1) (a := py!"scomplen")
      (by obtain ⟨cx, hcx, hxt⟩ := hx; rw [hxt]; exact record_ints cx hcx _ (by decide)) (by decide) (by decide))
  rw [M.bind_eq]
  rcases hm : attrM x py!"scomplen" w1 with ⟨(e | k), w2⟩
  · rw [hm] at hat
    exact ⟨env1, hv1, block_exc (exec_if_err (eval_cmp_err hat))⟩
  rw [hm] at hat
  have hs2 := (Keeps.attrM x _).safe.to hm hs1
  have hcmp : eval ((P).at (n + 3)) GU (.cmp .ltE (.attr (.name "record") py!"scomplen") (.const (.int 0))) env1 (emb out w1) =
      (.ok (.bool (decide (k ≤ 0))), emb out w2) := (eval_cmp hat (eval_const _ _ _)).trans rfl
  dsimp only
  by_cases hk : k ≤ 0
  · rw [if_pos hk]
    refine ⟨env1, hv1, ?_⟩
    refine block_brk ((exec_if_true hcmp (by simpa [truth] using hk)).trans ?_)
    exact block_brk (by simp only [exec])
  rw [if_neg hk, block_next ((exec_if_false hcmp (by simpa [truth] using hk)).trans block_nil)]
  refine steps_assign hv1 (eval_sstat hs2 hc hx hv1 hr1) ?_
  intro ss w3 hw3
  have hs3 := (Safe.sstat Z i x).to hw3 hs2
  have hv3 : GVars i v rot (env1.set "sstat" (refVal ss)) := hv1.set _ (by decide)
  have hr3 : (env1.set "sstat" (refVal ss)) "record" = some (refVal x) := hr1
  have hss3 : (env1.set "sstat" (refVal ss)) "sstat" = some (refVal ss) := rfl
  generalize env1.set "sstat" (refVal ss) = env3 at hv3 hr3 hss3
  refine steps_assign hv3 (eval_tstat (n := n) hs3 hc hx hv3 hr3) ?_
  intro ts w4 hw4
  have hs4 := (Safe.tstat Z i x).to hw4 hs3
  have hv4 : GVars i v rot (env3.set "tstats" (.list (ts.map refVal))) := hv3.set _ (by decide)
  have hr4 : (env3.set "tstats" (.list (ts.map refVal))) "record" = some (refVal x) := hr3
  have hss4 : (env3.set "tstats" (.list (ts.map refVal))) "sstat" = some (refVal ss) := hss3
  have hts4 : (env3.set "tstats" (.list (ts.map refVal))) "tstats" = some (.list (ts.map refVal)) := rfl
  generalize env3.set "tstats" (.list (ts.map refVal)) = env4 at hv4 hr4 hss4 hts4
  -- the end, with the groups
  have fin : ∀ (cg : List Obj.Group) (w5 : World),
      Steps out (GVars i v rot) (RoundEnd out (GVars i v rot))
        (execBlock ((P).at (n + 3)) GU none block![.yield (.tuple exprs![(.name "record"), (.name "sstat"), (.name "tstats"), (.name "cgroups")])]
          (env4.set "cgroups" (.list (cg.map groupVal))) (emb out w5))
        ((Pure.pure (some { record := x, sstat := ss, tstats := ts, cgroups := cg }) : M (Option Obj.Tuple)) w5) := by
    intro cg w5
    refine ⟨env4.set "cgroups" (.list (cg.map groupVal)), hv4.set _ (by decide), ?_⟩
    have he : eval ((P).at (n + 3)) GU (.tuple exprs![(.name "record"), (.name "sstat"), (.name "tstats"), (.name "cgroups")])
        (env4.set "cgroups" (.list (cg.map groupVal))) (emb out w5) = (.ok (tupleVal { record := x, sstat := ss, tstats := ts, cgroups := cg }), emb out w5) :=
      eval_tuple (evals_cons (eval_name hr4) (evals_cons (eval_name hss4) (evals_cons (eval_name hts4) (evals_one (eval_name rfl)))))
    simp only [execBlock, exec]
    rw [withE_ok he]
    exact yield_last _ _ _
  have hcg := eval_cgroups (R := (P).at (n + 3)) (G := GU) (w := emb out w4) hv4
  by_cases hvv : v.1 ≥ 2 ∧ v.2 ≥ 11
  · rw [if_pos hvv, M.bind_eq]
    have hec := eval_cstat (Z := Z) (fs := fs) (args := args) (n := n) (out := out) hs4 hc hx hv4 hr4
    rcases hm : Obj.getCStat Z i x w4 with ⟨(e | cg), w5⟩
    · rw [hm] at hec
      exact ⟨env4, hv4, block_exc ((exec_if_true hcg (by simpa [truth] using hvv)).trans (block_exc (exec_assign_err hec)))⟩
    · rw [hm] at hec
      rw [block_next ((exec_if_true hcg (by simpa [truth] using hvv)).trans ((block_next (exec_assign hec)).trans block_nil))]
      exact fin cg w5
  · rw [if_neg hvv, M.pure_bind]
    have hnil : eval ((P).at (n + 3)) GU (.list exprs![]) env4 (emb out w4) = (.ok (.list []), emb out w4) := eval_list evals_nil
    rw [block_next ((exec_if_false hcg (by simpa [truth] using hvv)).trans ((block_next (exec_assign hnil)).trans block_nil))]
    exact fin [] w4

end
end Atop.Src
