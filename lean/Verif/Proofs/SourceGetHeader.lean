import Verif.Proofs.SourceCheck
/-!
# `get_header`, from its text
-/

namespace Atop.Src
open Spec
set_option maxRecDepth 20000

theorem read_short {n : Nat} {s : Stream} : (Stream.read n s).2.short = s.short := by
  unfold Stream.read
  split
  · rfl
  · cases s.short <;> rfl

theorem read_len {n : Nat} {s s' : Stream} {b : Bytes} (h : Stream.read n s = (.ok b, s')) : b.length ≤ n := by
  unfold Stream.read at h
  split at h
  · cases h; simp; omega
  · cases hs : s.short with
    | none => rw [hs] at h; cases h; omega
    | some e => rw [hs] at h; cases h

theorem read_err {n : Nat} {s s' : Stream} {e : Exc} (h : Stream.read n s = (.error e, s')) (hl : LibFile s) : embExc e = .sys e := by
  unfold Stream.read at h
  split at h
  · cases h
  · cases hs : s.short with
    | none => rw [hs] at h; cases h
    | some e' => rw [hs] at h; cases h; exact hl _ hs

/-- Operations that leave the header objects alone. -/
def Keeps {α : Type} (m : M α) : Prop := ∀ w, (m w).2.headers = w.headers ∧ (m w).2.file.short = w.file.short

theorem Keeps.lift {α : Type} (x : Except Exc α) : Keeps (M.lift x) := fun _ => ⟨rfl, rfl⟩
theorem Keeps.pure {α : Type} (a : α) : Keeps (Pure.pure a : M α) := fun _ => ⟨rfl, rfl⟩
theorem Keeps.alloc (b : Bytes) : Keeps (M.alloc b) := fun _ => ⟨rfl, rfl⟩
theorem Keeps.load (b : Nat) : Keeps (M.load b) := fun _ => ⟨rfl, rfl⟩
theorem Keeps.store (b : Nat) (x : Bytes) : Keeps (M.store b x) := fun _ => ⟨rfl, rfl⟩
theorem Keeps.read (n : Nat) : Keeps (M.file (Stream.read n)) := fun _ => ⟨rfl, read_short⟩
theorem Keeps.bind {α β : Type} {m : M α} {f : α → M β} (h : Keeps m) (hf : ∀ a, Keeps (f a)) : Keeps (m >>= f) := by
  intro w
  rw [M.bind_eq]
  have := h w
  rcases hm : m w with ⟨(e | a), w'⟩
  · rw [hm] at this; exact this
  · rw [hm] at this
    obtain ⟨h1, h2⟩ := hf a w'
    exact ⟨h1.trans this.1, h2.trans this.2⟩
theorem Keeps.header (i : Nat) : Keeps (M.header i) := by
  intro w; unfold M.header; cases w.header i <;> exact ⟨rfl, rfl⟩
theorem Keeps.inst (r : Ref) : Keeps r.inst := Keeps.bind (Keeps.load _) fun _ => Keeps.pure _

/-- `readinto`, with its result. -/
def readintoN (blk : Nat) : M Nat := do
  let old ← M.load blk
  let got ← M.file (Stream.read old.length)
  M.store blk (got ++ old.drop got.length)
  return got.length

theorem readinto_bind {α : Type} (blk : Nat) (k : Unit → M α) : M.readinto blk >>= k = readintoN blk >>= fun _ => k () := by
  unfold M.readinto readintoN
  simp only [M.bind_assoc, M.pure_bind]

theorem Keeps.readintoN (blk : Nat) : Keeps (readintoN blk) :=
  Keeps.bind (Keeps.load _) fun _ => Keeps.bind (Keeps.read _) fun _ => Keeps.bind (Keeps.store _ _) fun _ => Keeps.pure _

theorem fileRead_emb {out : PyStr} {w : World} (hl : LibFile w.file) (n : Nat) :
    (do return Val.bytes (← fileRead n) : E Val) (emb out w) = embR out Val.bytes (M.file (Stream.read n) w) := by
  rw [E.bind_eq]
  unfold fileRead M.file
  rcases hr : Stream.read n w.file with ⟨(e | b), s⟩
  · have : Stream.read n (emb out w).file = (.error e, s) := hr
    rw [this]
    show _ = ((Except.error (embExc e), _) : Except PExc Val × W)
    rw [read_err hr hl]; rfl
  · have : Stream.read n (emb out w).file = (.ok b, s) := hr
    rw [this]; rfl

theorem readinto_emb {out : PyStr} {w : World} (hl : LibFile w.file) (blk : Nat) :
    fileReadinto blk (emb out w) = embR out (fun k : Nat => .int k) (readintoN blk w) := by
  have e1 : readintoN blk w = match Stream.read (w.heap.getD blk []).length w.file with
      | (.ok b, s) => (.ok b.length, { w with file := s, heap := w.heap.set blk (b ++ (w.heap.getD blk []).drop b.length) })
      | (.error e, s) => (.error e, { w with file := s }) := by
    unfold readintoN
    simp only [M.bind_eq, M.load, M.file]
    rcases Stream.read (w.heap.getD blk []).length w.file with ⟨(e | b), s⟩ <;> rfl
  rw [e1]
  unfold fileReadinto fileRead
  dsimp only
  have : Stream.read ((emb out w).heap.getD blk []).length (emb out w).file = Stream.read (w.heap.getD blk []).length w.file := rfl
  rw [this]
  rcases hr : Stream.read (w.heap.getD blk []).length w.file with ⟨(e | b), s⟩
  · show _ = ((Except.error (embExc e), _) : Except PExc Val × W)
    rw [read_err hr hl]; rfl
  · rfl

section
variable {Z : Zlib} {fs : FileSystem} {args : CommandLine} {out : PyStr} {w : World} {i : Nat} {h : Header} {n : Nat}

local notation "P" => program Z fs args
local notation "GU" => Rt.globals (program Z fs args) py!"atoparser.utils"

/-- `_HEADER_BY_VERSION` -/
def versionTable : List (PyStr × Val) := versions.map fun c => (c.supportedVersion, .hcls c)

theorem g_table : GU py!"_HEADER_BY_VERSION" = some (.dict versionTable) := rfl
theorem g_default : GU py!"_DEFAULT_VERSION" = some (.str defaultHeader.supportedVersion) := rfl
theorem g_magic : GU py!"MAGIC" = some (.int (MAGIC : Int)) := rfl
theorem g_hex : GU py!"hex" = none := rfl
theorem g_value : GU py!"ValueError" = none := rfl

theorem table_lookup (v : PyStr) : versionTable.lookup v = (headerByVersion v).map Val.hcls := by
  unfold versionTable headerByVersion
  induction versions with
  | nil => rfl
  | cons c cs ih =>
    rw [List.map_cons, List.lookup_cons, List.find?_cons, ih]
    by_cases hc : c.supportedVersion = v
    · subst hc; simp
    · have h1 : (v == c.supportedVersion) = false := by simpa using fun e => hc e.symm
      have h2 : (c.supportedVersion == v) = false := by simpa using hc
      rw [h1, h2]

theorem byVersion_mem {v : PyStr} {c : HeaderClass} (h : headerByVersion v = some c) : c ∈ versions := List.mem_of_find?_eq_some h

theorem table_default : headerByVersion defaultHeader.supportedVersion = some defaultHeader := rfl

/-- The end of `get_header`. -/
def checkEnd (check : Bool) (j : Nat) : M Nat :=
  if check then do
    let h ← M.header j
    M.latch j
    M.lift h.checkCompatibility
    pure j
  else pure j

/-- `get_header` after the header has been read. -/
def afterRead (check : Bool) (blk i : Nat) : M Nat := do
  let h0 ← M.header i
  let magic ← M.lift (h0.inst.intAttr py!"magic")
  if magic ≠ (MAGIC : Int) then M.lift (.error (.valueError (.badMagic (magicText magic.toNat))))
  else
    let v ← M.lift h0.semanticVersion
    M.latch i
    if v ≠ defaultHeader.supportedVersion then
      match headerByVersion v with
      | some c =>
        if h0.buf.length < c.size then M.lift (.error (.valueError .bufferTooSmall)) >>= checkEnd check
        else M.newHeader { cls := c, blk, cache := none } >>= checkEnd check
      | none => pure i >>= checkEnd check
    else pure i >>= checkEnd check

theorem getHeader_eq (check : Bool) : Obj.getHeader check = (do
    let blk ← M.alloc (List.replicate defaultHeader.size 0)
    let i ← M.newHeader { cls := defaultHeader, blk, cache := none }
    let _ ← readintoN blk
    afterRead check blk i) := by
  unfold Obj.getHeader M.readHeader
  simp only [M.bind_assoc, readinto_bind, M.pure_bind]
  rfl

theorem header_get {w : World} {i : Nat} {h : Header} (hh : w.header i = some h) : M.header i w = (.ok h, w) := by
  unfold M.header; rw [hh]

theorem bind_run {α β : Type} {m : M α} {k : α → M β} {w w' : World} {a : α} (h : m w = (.ok a, w')) : (m >>= k) w = k a w' := by
  rw [M.bind_eq, h]
theorem bind_lift {α β : Type} (a : α) (k : α → M β) : M.lift (.ok a) >>= k = k a := rfl
theorem bind_lift_err {α β : Type} (e : Exc) (k : α → M β) : M.lift (.error e) >>= k = M.lift (.error e) := rfl
theorem bind_fail {α β : Type} {m : M α} {k : α → M β} {w w' : World} {e : Exc} (h : m w = (.error e, w')) :
    (m >>= k) w = (.error e, w') := by
  rw [M.bind_eq, h]

/-- `header.check_compatibility()` -/
theorem eval_check {env : Env} (hx : env "header" = some (.hdr i)) (hh : w.header i = some h) (hc : h.cls ∈ versions) :
    eval ((P).at (n + 3)) GU (.call (.attr (.name "header") py!"check_compatibility") exprs![] .nil) env (emb out w) =
      embR out (fun _ => .none) ((do M.latch i; M.lift h.checkCompatibility : M Unit) w) := by
  obtain ⟨o, h1, h2, h3, h4⟩ := header_some hh
  have ho := emb_hdr (out := out) h1
  have hcl : (embH o).cls ∈ versions := by show o.cls ∈ versions; rw [h2]; exact hc
  have ha : attrOf ((P).at (n + 3)) (.hdr i) py!"check_compatibility" (emb out w) =
      (.ok (.bound (.hdr i) py!"atoparser.structs.shared" Text.HeaderMixin.check_compatibility), emb out w) := by
    have hat : (embH o).attrs.lookup py!"check_compatibility" = none := by
      show (attrsOf o.cache).lookup _ = none
      cases o.cache <;> rfl
    simp only [attrOf, hdrAttr, ho, plain_none _ hcl py!"check_compatibility" (by decide), at_globals, mixin_check, hat]
  exact (eval_call0 ((eval_attr (eval_name hx)).trans ha)).trans (call_check hh hc)

theorem check_end {env : Env} {check : Bool} (hx : env "header" = some (.hdr i))
    (hk : env "check_compatibility" = some (.bool check)) (hh : w.header i = some h) (hc : h.cls ∈ versions) :
    Ends out (fun a => .ret (.hdr a)) (execBlock ((P).at (n + 3)) GU none block![
      .ifte (.name "check_compatibility") block![
        .expr (.call (.attr (.name "header") py!"check_compatibility") exprs![] .nil)] block![],
      .ret (.name "header")] env (emb out w)) (checkEnd check i w) := by
  unfold checkEnd
  cases check with
  | false =>
    refine Ends.of_eq (block_next ((exec_if_false (eval_name hk) rfl).trans block_nil)) ?_
    exact ends_ret (m := Pure.pure i) (eval_name hx)
  | true =>
    rw [if_pos rfl, bind_run (header_get hh)]
    have e := eval_check (Z := Z) (fs := fs) (args := args) (n := n) (out := out) hx hh hc
    rcases hm : (do M.latch i; M.lift h.checkCompatibility : M Unit) w with ⟨(x | u), w'⟩
    · rw [hm] at e
      have hm' : (do M.latch i; M.lift h.checkCompatibility; pure i : M Nat) w = (.error x, w') := by
        rw [← M.bind_assoc]
        exact bind_fail hm
      rw [hm']
      exact ⟨env, block_exc ((exec_if_true (eval_name hk) rfl).trans (block_exc (exec_expr_err rfl e)))⟩
    · rw [hm] at e
      have hm' : (do M.latch i; M.lift h.checkCompatibility; pure i : M Nat) w = (.ok i, w') := by
        rw [← M.bind_assoc]
        exact bind_run hm
      rw [hm']
      exact ⟨env, (block_next ((exec_if_true (eval_name hk) rfl).trans ((block_next (exec_expr rfl e)).trans block_nil))).trans
        (block_ret (exec_ret (eval_name hx)))⟩

theorem hcls_from (c : HeaderClass) : hclsAttr c py!"from_buffer" = some (.method (.hcls c) .fromBuffer) := rfl

theorem call_readinto {R : Rt} {w : W} {o : PHdr} (ho : w.headers[i]? = some o) :
    callVal R (.method .file .readinto) [.hdr i] [] w = fileReadinto o.blk w := by
  show (match w.headers[i]? with
    | some o => fileReadinto o.blk w
    | none => (.error .stuck, w)) = _
  rw [ho]

theorem call_from_buffer {R : Rt} {w : W} {o : PHdr} {c : HeaderClass} (ho : w.headers[i]? = some o) :
    callVal R (.method (.hcls c) .fromBuffer) [.hdr i] [] w =
      if (w.heap.getD o.blk []).length < c.size then (.error (.sys (.valueError .bufferTooSmall)), w) else newHdr c o.blk w := by
  show ((match w.headers[i]? with
    | some o =>
      if (w.heap.getD o.blk []).length < c.size then (.error (.sys (.valueError .bufferTooSmall)), w)
      else newHdr c o.blk w
    | none => (.error .stuck, w)) : Except PExc Val × W) = _
  rw [ho]

theorem after_read {env : Env} {check : Bool} {blk : Nat} (hx : env "header" = some (.hdr i))
    (hk : env "check_compatibility" = some (.bool check)) (ho : w.headers[i]? = some { cls := defaultHeader, blk, cache := none })
    (hb : (w.heap.getD blk []).length = defaultHeader.size) :
    Ends out (fun a => .ret (.hdr a)) (execBlock ((P).at (n + 3)) GU none block![
      .ifte (.cmp .notEq (.attr (.name "header") py!"magic") (.glob py!"MAGIC")) block![
        .assign (.name "msg") (.fstr exprs![(.const (.str py!"File does not contain raw atop output (wrong magic number): ")), (.fmt (.call (.glob py!"hex") exprs![(.attr (.name "header") py!"magic")] .nil))]),
        .raise (.call (.glob py!"ValueError") exprs![(.name "msg")] .nil)] block![],
      .assign (.name "header_version") (.attr (.name "header") py!"semantic_version"),
      .ifte (.and (.cmp .notEq (.name "header_version") (.glob py!"_DEFAULT_VERSION")) (.cmp .isIn (.name "header_version") (.glob py!"_HEADER_BY_VERSION"))) block![
        .assign (.name "header") (.call (.attr (.sub (.glob py!"_HEADER_BY_VERSION") (.name "header_version")) py!"from_buffer") exprs![(.name "header")] .nil)] block![],
      .ifte (.name "check_compatibility") block![
        .expr (.call (.attr (.name "header") py!"check_compatibility") exprs![] .nil)] block![],
      .ret (.name "header")] env (emb out w)) (afterRead check blk i w) := by
  have hR : ((P).at (n + 3)).globals = (P).globals := rfl
  have hdef : defaultHeader ∈ versions := by simp [versions, defaultHeader]
  have hh : w.header i = some { cls := defaultHeader, buf := (w.heap.getD blk []).take defaultHeader.size, cache := none } := by
    unfold World.header; rw [ho]
  have hbuf : ((w.heap.getD blk []).take defaultHeader.size).length = defaultHeader.size := by
    rw [List.length_take, hb, Nat.min_self]
  generalize hh0 : ({ cls := defaultHeader, buf := (w.heap.getD blk []).take defaultHeader.size, cache := none } : Header) = h0 at hh
  have hc : h0.cls ∈ versions := by rw [← hh0]; exact hdef
  have hbuf0 : h0.buf.length = defaultHeader.size := by rw [← hh0]; exact hbuf
  obtain ⟨k, hk'⟩ := base_int hc (h := h0) (a := py!"magic") (by decide)
  have hmag : attrOf ((P).at (n + 3)) (.hdr i) py!"magic" (emb out w) = (.ok (.int k), emb out w) := by
    rw [hdr_int (int_mixin hR) hh hc (by decide), hk']; rfl
  have emag := (eval_attr (G := GU) (eval_name hx)).trans hmag
  have ecmp : eval ((P).at (n + 3)) GU (.cmp .notEq (.attr (.name "header") py!"magic") (.glob py!"MAGIC")) env (emb out w) =
      (.ok (.bool (decide ((k : Int) ≠ (MAGIC : Int)))), emb out w) := (eval_cmp emag (eval_glob g_magic)).trans rfl
  unfold afterRead
  rw [bind_run (header_get hh), hk', bind_lift]
  by_cases hm : (k : Int) ≠ (MAGIC : Int)
  · rw [if_pos hm]
    have ehex : eval ((P).at (n + 3)) GU (.call (.glob py!"hex") exprs![(.attr (.name "header") py!"magic")] .nil) env (emb out w) =
        (.ok (.str (pyHex k)), emb out w) := by
      refine (eval_call1 (eval_builtin g_hex rfl) emag).trans ?_
      show (if (k : Int) < 0 then E.stuck else E.pure (Val.str (pyHex (k : Int).toNat)) : E Val) (emb out w) = _
      rw [if_neg (by omega)]
      rfl
    have emsg : eval ((P).at (n + 3)) GU (.fstr exprs![(.const (.str py!"File does not contain raw atop output (wrong magic number): ")), (.fmt (.call (.glob py!"hex") exprs![(.attr (.name "header") py!"magic")] .nil))]) env (emb out w) =
        (.ok (.str (magicText k)), emb out w) := by
      have := eval_fstr (evalParts_cons (eval_const (R := (P).at (n + 3)) (G := GU) (.str py!"File does not contain raw atop output (wrong magic number): ") env (emb out w))
        (evalParts_cons (eval_fmt ehex rfl) evalParts_nil))
      rw [List.append_nil] at this
      exact this
    have herr : exec ((P).at (n + 3)) GU none (.raise (.call (.glob py!"ValueError") exprs![(.name "msg")] .nil)) (env.set "msg" (.str (magicText k))) (emb out w) =
        .ret (.exc (.value (magicText k)), env.set "msg" (.str (magicText k))) (emb out w) :=
      exec_raise (v := .valueErr (magicText k)) (eval_call1 (eval_builtin g_value rfl) (eval_name (Env.set_same _ _ _)))
    exact ⟨env.set "msg" (.str (magicText k)), block_exc ((exec_if_true ecmp (by simpa [truth] using hm)).trans ((block_next (exec_assign emsg)).trans (block_exc herr)))⟩
  · rw [if_neg hm]
    refine Ends.of_eq (block_next ((exec_if_false ecmp (by simpa [truth] using hm)).trans block_nil)) ?_
    obtain ⟨v, hv, hsem⟩ := eval_semantic (Z := Z) (fs := fs) (args := args) (n := n + 2) (out := out) hh hc
    refine Ends.of_eq (block_next (exec_assign ((eval_attr (eval_name hx)).trans hsem))) ?_
    have hs : h0.semanticVersion = .ok (versionString v) := by unfold Header.semanticVersion; rw [hv]; rfl
    rw [hs, bind_lift, bind_run (latch_ok hh)]
    obtain ⟨l1, l2, l3⟩ := latch_header hh
    have ho' : ∃ c', (M.latch i w).2.headers[i]? = some { cls := defaultHeader, blk, cache := c' } := by
      rw [latch_eq hh ho]
      exact ⟨_, set_get ho⟩
    obtain ⟨c', ho'⟩ := ho'
    generalize hw1 : (M.latch i w).2 = w1 at *
    have hcl : h0.latched.cls ∈ versions := by rw [latched_cache hv]; exact hc
    generalize henv : env.set "header_version" (.str (versionString v)) = env1
    have hx1 : env1 "header" = some (.hdr i) := by rw [← henv]; exact hx
    have hk1 : env1 "check_compatibility" = some (.bool check) := by rw [← henv]; exact hk
    have hv1 : env1 "header_version" = some (.str (versionString v)) := by rw [← henv]; exact Env.set_same _ _ _
    have ene : eval ((P).at (n + 3)) GU (.cmp .notEq (.name "header_version") (.glob py!"_DEFAULT_VERSION")) env1 (emb out w1) =
        (.ok (.bool (decide (versionString v ≠ defaultHeader.supportedVersion))), emb out w1) :=
      (eval_cmp (eval_name hv1) (eval_glob g_default)).trans rfl
    have ein : eval ((P).at (n + 3)) GU (.cmp .isIn (.name "header_version") (.glob py!"_HEADER_BY_VERSION")) env1 (emb out w1) =
        (.ok (.bool (headerByVersion (versionString v)).isSome), emb out w1) := by
      refine (eval_cmp (eval_name hv1) (eval_glob g_table)).trans ?_
      show (E.pure (.bool (versionTable.lookup (versionString v)).isSome) : E Val) (emb out w1) = _
      rw [table_lookup]
      cases headerByVersion (versionString v) <;> rfl
    by_cases hne : versionString v ≠ defaultHeader.supportedVersion
    · rw [if_pos hne]
      have hand := (eval_and_true (b := .cmp .isIn (.name "header_version") (.glob py!"_HEADER_BY_VERSION")) ene (by simpa [truth] using hne)).trans ein
      cases hby : headerByVersion (versionString v) with
      | none =>
        rw [hby] at hand
        refine Ends.of_eq (block_next ((exec_if_false hand rfl).trans block_nil)) ?_
        exact check_end hx1 hk1 l1 hcl
      | some c =>
        rw [hby] at hand
        dsimp only
        have esub : eval ((P).at (n + 3)) GU (.sub (.glob py!"_HEADER_BY_VERSION") (.name "header_version")) env1 (emb out w1) =
            (.ok (.hcls c), emb out w1) := by
          refine (eval_sub (eval_glob g_table) (eval_name hv1)).trans ?_
          show (match versionTable.lookup (versionString v) with | some x => E.pure x | none => E.sys .keyError) (emb out w1) = _
          rw [table_lookup, hby]
          rfl
        have eattr : eval ((P).at (n + 3)) GU (.attr (.sub (.glob py!"_HEADER_BY_VERSION") (.name "header_version")) py!"from_buffer") env1 (emb out w1) =
            (.ok (.method (.hcls c) .fromBuffer), emb out w1) := (eval_attr esub).trans rfl
        have ecall := eval_call1 eattr (eval_name hx1)
        have hlen : ((emb out w1).heap.getD (embH { cls := defaultHeader, blk, cache := c' }).blk []).length = h0.buf.length := by
          show (w1.heap.getD blk []).length = _
          rw [l2, hbuf0]
          exact hb
        have hcv : callVal ((P).at (n + 3)) (.method (.hcls c) .fromBuffer) [.hdr i] [] (emb out w1) =
            if h0.buf.length < c.size then (.error (.sys (.valueError .bufferTooSmall)), emb out w1) else newHdr c blk (emb out w1) := by
          rw [call_from_buffer (emb_hdr ho'), hlen]
          rfl
        rw [hcv] at ecall
        by_cases hlt : h0.buf.length < c.size
        · rw [if_pos hlt] at ecall ⊢
          rw [bind_lift_err]
          exact ⟨_, block_exc ((exec_if_true hand rfl).trans (block_exc (exec_assign_err ecall)))⟩
        · rw [if_neg hlt] at ecall ⊢
          have hnew : newHdr c blk (emb out w1) = (.ok (.hdr w1.headers.length), emb out { w1 with headers := w1.headers ++ [{ cls := c, blk, cache := none }] }) := by
            unfold newHdr emb
            simp [embH, attrsOf]
          rw [hnew] at ecall
          rw [bind_run (m := M.newHeader _) rfl]
          refine Ends.of_eq (block_next ((exec_if_true hand rfl).trans ((block_next (exec_assign ecall)).trans block_nil))) ?_
          have hget : (w1.headers ++ [({ cls := c, blk, cache := none } : HObj)])[w1.headers.length]? = some { cls := c, blk, cache := none } := by simp
          refine check_end (Env.set_same _ _ _) ?_ (h := { cls := c, buf := (w1.heap.getD blk []).take c.size, cache := none }) ?_ (byVersion_mem hby)
          · rw [Env.set_ne _ _ (by decide)]; exact hk1
          · unfold World.header
            rw [hget]
    · rw [if_neg hne]
      have hand := eval_and_false (b := .cmp .isIn (.name "header_version") (.glob py!"_HEADER_BY_VERSION")) ene (by simpa [truth] using hne)
      refine Ends.of_eq (block_next ((exec_if_false hand (by simpa [truth] using hne)).trans block_nil)) ?_
      exact check_end hx1 hk1 l1 hcl

/-- `get_header(raw_file, check_compatibility)` -/
theorem run_get_header {check : Bool} {l : List (String × Val)} (hl : LibFile w.file)
    (hf : l.lookup "raw_file" = some .file) (hk : l.lookup "check_compatibility" = some (.bool check)) :
    Ends out (fun a => .ret (.hdr a)) (execBlock ((P).at (n + 3)) GU none Text.Utils.get_header.body (envOf l) (emb out w))
      (Obj.getHeader check w) := by
  rw [getHeader_eq]
  unfold Text.Utils.get_header
  dsimp only
  let w1 : World := { w with heap := w.heap ++ [List.replicate defaultHeader.size 0], headers := w.headers ++ [{ cls := defaultHeader, blk := w.heap.length, cache := none }] }
  have hnew : eval ((P).at (n + 3)) GU (.call (.sub (.glob py!"_HEADER_BY_VERSION") (.glob py!"_DEFAULT_VERSION")) exprs![] .nil) (envOf l) (emb out w) =
      (.ok (.hdr w.headers.length), emb out w1) := by
    have esub : eval ((P).at (n + 3)) GU (.sub (.glob py!"_HEADER_BY_VERSION") (.glob py!"_DEFAULT_VERSION")) (envOf l) (emb out w) =
        (.ok (.hcls defaultHeader), emb out w) := by
      refine (eval_sub (eval_glob g_table) (eval_glob g_default)).trans ?_
      show (match versionTable.lookup defaultHeader.supportedVersion with | some x => E.pure x | none => E.sys .keyError) (emb out w) = _
      rw [table_lookup, table_default]
      rfl
    refine (eval_call0 esub).trans ?_
    show ((do newHdr defaultHeader (← allocE (List.replicate defaultHeader.size 0))) : E Val) (emb out w) = _
    rw [E.bind_eq]
    simp [allocE, newHdr, emb, w1, embH, attrsOf]
  rw [bind_run (m := M.alloc _) rfl, bind_run (m := M.newHeader _) (w' := w1) rfl]
  refine Ends.of_eq (block_next (exec_assign hnew)) ?_
  generalize henv : (envOf l).set "header" (.hdr w.headers.length) = env1
  have hx1 : env1 "header" = some (.hdr w.headers.length) := by rw [← henv]; exact Env.set_same _ _ _
  have hf1 : env1 "raw_file" = some .file := by rw [← henv]; exact hf
  have hk1 : env1 "check_compatibility" = some (.bool check) := by rw [← henv]; exact hk
  have ho1 : w1.headers[w.headers.length]? = some { cls := defaultHeader, blk := w.heap.length, cache := none } := by simp [w1]
  have hread : eval ((P).at (n + 3)) GU (.call (.attr (.name "raw_file") py!"readinto") exprs![(.name "header")] .nil) env1 (emb out w1) =
      embR out (fun k : Nat => .int k) (readintoN w.heap.length w1) := by
    refine (eval_call1 (fv := .method .file .readinto) (w1 := emb out w1) ((eval_attr (eval_name hf1)).trans rfl) (eval_name hx1)).trans ?_
    rw [← readinto_emb (show LibFile w1.file from hl)]
    exact call_readinto (emb_hdr ho1)
  refine ends_expr rfl hread ?_
  intro k w2 hr
  have hkeep := Keeps.readintoN w.heap.length w1
  rw [hr] at hkeep
  refine after_read hx1 hk1 (by rw [hkeep.1]; exact ho1) ?_
  have hget : w1.heap.getD w.heap.length [] = List.replicate defaultHeader.size 0 := by simp [w1]
  have hr' := hr
  unfold readintoN at hr'
  rw [bind_run (m := M.load _) (w' := w1) rfl, hget, List.length_replicate] at hr'
  rcases hq : Stream.read defaultHeader.size w1.file with ⟨(e | b), s⟩
  · rw [bind_fail (e := e) (w' := { w1 with file := s }) (by unfold M.file; rw [hq])] at hr'
    cases hr'
  · rw [bind_run (a := b) (w' := { w1 with file := s }) (by unfold M.file; rw [hq]), bind_run (m := M.store _ _) rfl] at hr'
    have hlen := read_len hq
    cases hr'
    have hi : w.heap.length < w1.heap.length := by simp [w1]
    simp only [List.getD_eq_getElem?_getD, List.getElem?_set_self hi, Option.getD_some, List.length_append, List.length_drop, List.length_replicate]
    omega

theorem call_get_header {check : Bool} {as : List Val} {kws l : List (String × Val)}
    (hb : bindArgs (withDefaults Text.Utils.get_header.params [.bool true]) as kws = some l) (hl : LibFile w.file)
    (hf : l.lookup "raw_file" = some .file) (hk : l.lookup "check_compatibility" = some (.bool check)) :
    callFn ((P).at (n + 4)) py!"atoparser.utils" Text.Utils.get_header [.bool true] as kws (emb out w) =
      embR out Val.hdr (Obj.getHeader check w) :=
  call_ends hb (by decide +kernel) (run_get_header hl hf hk)

end
end Atop.Src
