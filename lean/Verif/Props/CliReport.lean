import Verif.Spec.Report
import Verif.Props.CliMain
import Verif.Props.Tuf

/-!
# What `sigstore verify` reports (C106)
-/

namespace Sigstore.Props

open Sigstore.Spec Sigstore.Trust Sigstore.LogEntry Sigstore.Dsse Sigstore.Cli

/-! ## Writing does not change what happens -/

theorem statementSaid_print (decode : Bool) (s : Option Statement) :
    (∀ e, statementSaid decode s = .error e ↔ printStatement decode s = .error e) ∧
    ((∃ l, statementSaid decode s = .ok l) ↔ printStatement decode s = .ok ()) := by
  cases s with
  | none => simp [statementSaid, printStatement]
  | some s =>
    cases decode with
    | false => simp [statementSaid, printStatement]
    | true =>
      unfold statementSaid printStatement
      simp only [if_true]
      cases utf8Decode s.contents <;> simp

theorem verifyLoopSaid_fst (venv : VerifyEnv) (now : Time) (v : Verifier) (policy : Cert → Py Unit) (decode verbose : Bool) :
    ∀ items, (verifyLoopSaid venv now v policy decode verbose items).1 = verifyLoop venv now v policy decode verbose items := by
  intro items
  induction items with
  | nil => rfl
  | cons x items ih =>
    obtain ⟨i, h, b⟩ := x
    rw [verifyLoopSaid, verifyLoop]
    cases hv : verifyCommonCli venv now v h b policy with
    | error e =>
      dsimp only
      split <;> rfl
    | ok st =>
      dsimp only
      obtain ⟨h1, h2⟩ := statementSaid_print decode st
      cases hs : statementSaid decode st with
      | error e => rw [(h1 e).1 hs]
      | ok l =>
        rw [h2.1 ⟨l, hs⟩]
        exact ih

/-- the model with what is written is the model without it, and something written -/
theorem verifyMainSaid_refines (venv : VerifyEnv) (fs : Fs) (now : Time) (cmd : VerifyCommand) (verbose : Bool)
    (positional : List Str) (certificate signature bundle : Option Path) (trust : TrustArgs) (w : VerifyWorld) :
    verifyMain venv fs now cmd verbose positional certificate signature bundle trust w =
      ((verifyMainSaid venv fs now cmd verbose positional certificate signature bundle trust w).1,
       (verifyMainSaid venv fs now cmd verbose positional certificate signature bundle trust w).2.1) := by
  unfold verifyMain verifyMainSaid
  cases positional with
  | nil => rfl
  | cons a as =>
    dsimp only
    cases parseInputs fs (a :: as) with
    | error e => rfl
    | ok inputs =>
      dsimp only
      unfold verifyCommand verifyCommandSaid
      cases cmd.policy with
      | error e => rfl
      | ok policy =>
        dsimp only
        cases collectState venv fs now ⟨inputs, certificate, signature, bundle, trust⟩ w with
        | mk r w' =>
          cases r with
          | error e => rfl
          | ok r =>
            obtain ⟨v, items⟩ := r
            dsimp only
            rw [← verifyLoopSaid_fst]

/-! ## Names -/

theorem splitSlash_line (l s : Str) (h : '/' ∉ l) : splitSlash (l ++ '/' :: s) = l :: splitSlash s := by
  induction l with
  | nil => simp [splitSlash]
  | cons c l ih =>
    have hc : c ≠ '/' := fun e => h (by simp [e])
    rw [List.cons_append, splitSlash, if_neg hc, ih (fun hm => h (by simp [hm]))]

theorem splitSlash_intercalate : ∀ (ls : List Str), ls ≠ [] → (∀ l ∈ ls, '/' ∉ l) →
    splitSlash (List.intercalate ['/'] ls) = ls := by
  intro ls
  induction ls with
  | nil => intro h; exact absurd rfl h
  | cons l ls ih =>
    intro _ h
    cases ls with
    | nil => simpa [List.intercalate] using splitSlash_of_not_mem (h l (by simp))
    | cons l' ls =>
      have e : List.intercalate ['/'] (l :: l' :: ls) = l ++ '/' :: List.intercalate ['/'] (l' :: ls) := by
        simp [List.intercalate]
      rw [e, splitSlash_line _ _ (h l (by simp)), ih (by simp) (fun x hx => h x (by simp [hx]))]

/-- a path as `Path(...)` makes it -/
def PathWellFormed (p : Path) : Prop := ∀ c ∈ p.parts, '/' ∉ c ∧ c ≠ [] ∧ c ≠ ['.']

theorem pathWellFormed_ofStr (s : Str) : PathWellFormed (Path.ofStr s) := by
  intro c hc
  obtain ⟨h1, h2⟩ := List.mem_filter.1 (show c ∈ pathParts s from hc)
  exact ⟨splitSlash_no_slash s c h1, (of_decide_eq_true h2).1, (of_decide_eq_true h2).2⟩

/-- the text of a path stands for that path -/
theorem ofStr_str {p : Path} (h : PathWellFormed p) : Path.ofStr (Path.str p) = p ∧ Path.str p ≠ [] := by
  obtain ⟨ab, parts⟩ := p
  have hf : parts.filter (fun p => decide (p ≠ [] ∧ p ≠ ['.'])) = parts :=
    List.filter_eq_self.2 fun c hc => decide_eq_true (h c hc).2
  unfold Path.str
  dsimp only
  cases ab with
  | true =>
    rw [if_pos rfl]
    refine ⟨?_, by simp⟩
    unfold Path.ofStr pathParts
    rw [splitSlash, if_pos rfl]
    by_cases hp : parts = []
    · subst hp; simp [splitSlash]
    · rw [splitSlash_intercalate parts hp fun c hc => (h c hc).1, List.filter_cons_of_neg (by simp), hf]
      simp
  | false =>
    rw [if_neg (by simp)]
    by_cases hp : parts = []
    · subst hp; rw [if_pos rfl]; exact ⟨by decide, by simp⟩
    · rw [if_neg hp]
      obtain ⟨a, l, rfl⟩ := List.exists_cons_of_ne_nil hp
      obtain ⟨ha1, ha2, _⟩ := h a (by simp)
      obtain ⟨c, cs, rfl⟩ := List.exists_cons_of_ne_nil ha2
      have hh : (List.intercalate ['/'] ((c :: cs) :: l)).head? = some c := by
        cases l <;> simp [List.intercalate]
      constructor
      · unfold Path.ofStr pathParts
        rw [splitSlash_intercalate _ hp fun c hc => (h c hc).1, hf, hh]
        have : c ≠ '/' := fun e => ha1 (by simp [e])
        simp [this]
      · intro e; rw [e] at hh; simp at hh

theorem names_str {fs : Fs} {arg : Str} {i : VerifyInput} (h : ArgDenotes fs arg i) : Names i.str i := by
  cases h with
  | file _ =>
    obtain ⟨h1, h2⟩ := ofStr_str (pathWellFormed_ofStr arg)
    exact .file h2 h1
  | digest hf hd =>
    rename_i d
    obtain ⟨_, _, _, _, hl⟩ := hd
    have : VerifyInput.str (.digest ⟨.sha2_256, d⟩) = "SHA2_256:".toList ++ hexEncode d := rfl
    rw [this]
    exact .digest (hexText_hexEncode d) (by rw [length_hexEncode, hl])

/-! ## Literals -/

theorem hexDigit_digit : ∀ n, n < 16 → HexDigit (hexDigit n) n := fun n hn => (hexVal_iff _ _).1 (hexVal_hexDigit n hn)

theorem reprByte_body {q : Char} (hq : q = '\'' ∨ q = '"') (b : UInt8) {s : Str} {bs : Bytes} (h : LiteralBody q s bs) :
    LiteralBody q (reprByte q b ++ s) (b :: bs) := by
  unfold reprByte
  split
  · rename_i hb
    refine .escape ?_ h
    have : b = 0x27 ∨ b = 0x22 ∨ b = 0x5c := by
      rcases hb with hb | hb
      · rcases hq with rfl | rfl
        · exact .inl (UInt8.toNat_inj.1 (by rw [hb]; rfl))
        · exact .inr (.inl (UInt8.toNat_inj.1 (by rw [hb]; rfl)))
      · exact .inr (.inr hb)
    rcases this with rfl | rfl | rfl <;> decide
  · rename_i hb
    rw [not_or] at hb
    split
    · rename_i e; subst e; exact .escape (by decide) h
    · split
      · rename_i e; subst e; exact .escape (by decide) h
      · split
        · rename_i e; subst e; exact .escape (by decide) h
        · split
          · have hlt : b.toNat < 256 := b.toNat_lt
            have e : UInt8.ofNat (16 * (b.toNat / 16) + b.toNat % 16) = b := by
              rw [Nat.div_add_mod]; exact UInt8.ofNat_toNat
            have := LiteralBody.hex (hexDigit_digit (b.toNat / 16) (by omega)) (hexDigit_digit (b.toNat % 16) (by omega)) h
            rw [e] at this
            exact this
          · rename_i hr
            rw [not_or] at hr
            have h1 : 0x20 ≤ b.toNat := by
              have := UInt8.le_iff_toNat_le.1 (UInt8.not_lt.1 hr.1); exact this
            have h2 : b.toNat < 0x7f := by
              have := UInt8.lt_iff_toNat_lt.1 (UInt8.not_le.1 hr.2); exact this
            have hv : (Char.ofNat b.toNat).toNat = b.toNat := ofNat_toNat_ascii (by omega)
            have hne : ∀ c : Char, Char.ofNat b.toNat = c → b.toNat = c.toNat := fun c e => by rw [← e, hv]
            have := LiteralBody.plain (q := q) (c := Char.ofNat b.toNat) (by rw [hv]; exact h1) (by rw [hv]; exact h2)
              (fun e => hb.1 (hne _ e)) (fun e => hb.2 (UInt8.toNat_inj.1 (hne _ e))) h
            rw [hv, UInt8.ofNat_toNat] at this
            exact this

theorem bytesRepr_literal (bs : Bytes) : BytesLiteral (bytesRepr bs) bs := by
  unfold bytesRepr
  dsimp only
  have body : ∀ q : Char, (q = '\'' ∨ q = '"') → ∀ bs : Bytes, LiteralBody q (bs.flatMap (reprByte q)) bs := by
    intro q hq bs
    induction bs with
    | nil => exact .nil
    | cons b bs ih => rw [List.flatMap_cons]; exact reprByte_body hq b ih
  split
  · exact ⟨'"', _, .inr rfl, rfl, body _ (.inr rfl) bs⟩
  · exact ⟨'\'', _, .inl rfl, rfl, body _ (.inl rfl) bs⟩

/-! ## Order -/

/-- keys added one after the other -/
def addKeys {α : Type} [DecidableEq α] : List α → List α → List α
  | ks, [] => ks
  | ks, x :: l => addKeys (if x ∈ ks then ks else ks ++ [x]) l

theorem addKeys_eq {α : Type} [DecidableEq α] : ∀ (l ks : List α), ks.Nodup → addKeys ks l = (l.reverse ++ ks.reverse).dedup.reverse := by
  intro l
  induction l with
  | nil =>
    intro ks h
    rw [addKeys, List.reverse_nil, List.nil_append, (List.nodup_reverse.2 h).dedup, List.reverse_reverse]
  | cons x l ih =>
    intro ks h
    rw [addKeys]
    have e : (x :: l).reverse ++ ks.reverse = l.reverse ++ (x :: ks.reverse) := by simp
    rw [e]
    by_cases hx : x ∈ ks
    · rw [if_pos hx, ih ks h, List.dedup_append, List.dedup_append, List.dedup_cons_of_mem (by simpa using hx)]
    · rw [if_neg hx, ih _ (by
        rw [List.nodup_append]
        exact ⟨h, by simp, fun a ha b hb => by rw [List.mem_singleton.1 hb]; rintro rfl; exact hx ha⟩)]
      simp

theorem fileLoop_keys (fs : Fs) (args : VerifyArgs) : ∀ (inputs : List VerifyInput) (map map' : Dict VerifyInput Materials),
    (∀ i ∈ inputs, ∃ p, i = .file p) → fileLoop fs args map inputs = .ok map' → map'.keys = addKeys map.keys inputs := by
  intro inputs
  induction inputs with
  | nil => intro map map' _ h; rw [fileLoop] at h; rw [← Except.ok.inj h]; rfl
  | cons x inputs ih =>
    intro map map' hall h
    obtain ⟨p, rfl⟩ := hall x (by simp)
    rw [fileLoop] at h
    cases hm : fileMaterials fs args p with
    | error e => rw [hm] at h; simp at h
    | ok m =>
      rw [hm] at h
      rw [ih _ _ (fun i hi => hall i (by simp [hi])) h, Dict.keys_set, addKeys]

theorem inputMap_keys {fs : Fs} {args : VerifyArgs} {map : Dict VerifyInput Materials} (h : inputMap fs args = .ok map) :
    map.keys = Mentioned args.inputs := by
  obtain ⟨hcons, _, hall, hmat⟩ := inputMap_ok fs args map h
  unfold inputMap at h
  dsimp only at h
  split at h
  · simp at h
  · split at h
    · simp at h
    · split at h
      · simp at h
      · split at h
        · simp at h
        · cases hl : fileLoop fs args [] args.inputs with
          | error e => rw [hl] at h; simp at h
          | ok m =>
            rw [hl] at h
            cases m with
            | nil =>
              dsimp only at h
              split at h
              · rename_i input hin
                split at h
                · simp at h
                · rw [← Except.ok.inj h, hin]; rfl
              · simp at h
            | cons x xs =>
              have hfiles : ∀ i ∈ args.inputs, ∃ p, i = VerifyInput.file p := by
                intro i hi
                cases i with
                | file p => exact ⟨p, rfl⟩
                | digest d =>
                  exfalso
                  have hlen : args.inputs.length ≤ 1 := by
                    refine hcons.single ?_
                    rcases hcons.digests d hi with hb | ⟨hc, _⟩
                    · exact .inr (.inr hb)
                    · exact .inl hc
                  obtain ⟨y, hy⟩ : ∃ y, args.inputs = [y] := by
                    cases hin : args.inputs with
                    | nil => rw [hin] at hi; simp at hi
                    | cons a as =>
                      cases as with
                      | nil => exact ⟨a, rfl⟩
                      | cons b bs => rw [hin] at hlen; simp at hlen
                  rw [hy] at hi
                  obtain rfl := List.mem_singleton.1 hi
                  rw [hy, fileLoop, fileLoop] at hl
                  simp at hl
              have := fileLoop_keys fs args args.inputs [] _ hfiles hl
              rw [← Except.ok.inj h, this, addKeys_eq _ _ (by simp [Dict.keys])]
              simp [Mentioned, Dict.keys]

/-! ## The report -/

theorem verified_of_common {venv : VerifyEnv} {fs : Fs} {now : Time} {args : VerifyArgs} {v : Verifier}
    {policy : Cert → Py Unit} {i : VerifyInput} {m : Materials} {h : Hashed} {b : Bundle} (hm : MaterialsFor fs args i m)
    (hd : DigestOf venv.env.crypto fs i h) (hl : Loads venv fs h m b) {p : Option Bytes} :
    VerifiedWith venv fs now args v policy i p ↔
      ∃ st, verifyCommonCli venv now v h b policy = .ok st ∧ p = st.map (·.contents) := by
  constructor
  · rintro ⟨m', h', b', h1, h2, h3, h4⟩
    obtain rfl := materials_unique hm h1
    obtain rfl := digestOf_unique hd h2
    obtain rfl := loads_unique hl h3
    rcases h4 with ⟨g1, g2, rfl⟩ | ⟨g1, bytes, inner, g2, g3, g4, g5, rfl⟩
    · exact ⟨none, (verifyCommonCli_artifact_iff _ _ _ _ _ _).2 ⟨g1, g2⟩, rfl⟩
    · exact ⟨some ⟨bytes, inner⟩, (C53_attestation_iff _ _ _ _ _ _ _).2 ⟨g1, g2, g3, g4, g5⟩, rfl⟩
  · rintro ⟨st, hst, rfl⟩
    refine ⟨m, h, b, hm, hd, hl, ?_⟩
    cases st with
    | none =>
      obtain ⟨g1, g2⟩ := (verifyCommonCli_artifact_iff _ _ _ _ _ _).1 hst
      exact .inl ⟨g1, g2, rfl⟩
    | some st =>
      obtain ⟨g1, g2, g3, g4, g5⟩ := (C53_attestation_iff _ _ _ _ _ _ _).1 hst
      exact .inr ⟨g1, st.contents, st.inner, g2, g3, g4, g5, rfl⟩

/-- the loop, with the handler of `main` -/
theorem loop_reported (venv : VerifyEnv) (fs : Fs) (now : Time) (cmd : VerifyCommand) (verbose : Bool) (args : VerifyArgs)
    (v : Verifier) (policy : Cert → Py Unit) : ∀ (items : List (VerifyInput × Hashed × Bundle)),
    (∀ x ∈ items, Names x.1.str x.1 ∧ ∃ m, MaterialsFor fs args x.1 m ∧ DigestOf venv.env.crypto fs x.1 x.2.1 ∧
      Loads venv fs x.2.1 m x.2.2) →
    ∃ (done : List (VerifyInput × Option Bytes × List Said)) (rest : List VerifyInput) (tail : List Said),
      items.map (·.1) = done.map (·.1) ++ rest ∧
      (∀ x ∈ done, VerifiedWith venv fs now args v policy x.1 x.2.1 ∧ OkLines cmd x.1 x.2.1 x.2.2) ∧
      (verifyLoopSaid venv now v policy cmd.decodes verbose items).2 ++
        handlerSaid verbose (verifyLoopSaid venv now v policy cmd.decodes verbose items).1 = done.flatMap (·.2.2) ++ tail ∧
      ((rest = [] ∧ mainHandler verbose (verifyLoopSaid venv now v policy cmd.decodes verbose items).1 = .ok () ∧ tail = []) ∨
       ∃ i rest', rest = i :: rest' ∧
         Stops verbose i (∃ p, VerifiedWith venv fs now args v policy i p)
           (∀ p, VerifiedWith venv fs now args v policy i (some p) → PrintsText cmd = true → ∃ t, p = utf8 t)
           (mainHandler verbose (verifyLoopSaid venv now v policy cmd.decodes verbose items).1) tail) := by
  have hdec : cmd.decodes = PrintsText cmd := by cases cmd <;> rfl
  intro items
  induction items with
  | nil => intro _; exact ⟨[], [], [], rfl, by simp, by simp [verifyLoopSaid, handlerSaid], .inl ⟨rfl, rfl, rfl⟩⟩
  | cons x items ih =>
    intro hall
    obtain ⟨i, h, b⟩ := x
    obtain ⟨hn, m, hm, hd, hl⟩ := hall (i, h, b) (by simp)
    dsimp only at hn hm hd hl
    have hver := fun p => verified_of_common (now := now) (v := v) (policy := policy) (p := p) hm hd hl
    rw [verifyLoopSaid]
    cases hv : verifyCommonCli venv now v h b policy with
    | error e =>
      have hnot : ¬ ∃ p, VerifiedWith venv fs now args v policy i p := by
        rintro ⟨p, hp⟩
        obtain ⟨st, hst, _⟩ := (hver p).1 hp
        rw [hv] at hst; simp at hst
      dsimp only
      refine ⟨[], i :: items.map (·.1),
        (if e.isSigstoreError = true then (.error (logAndExit verbose e), failSaid verbose i e)
          else ((.error e : Py Unit), ([] : List Said))).2 ++
        handlerSaid verbose (if e.isSigstoreError = true then (.error (logAndExit verbose e), failSaid verbose i e)
          else ((.error e : Py Unit), ([] : List Said))).1, rfl, by simp, by simp, .inr ⟨i, _, rfl, ?_⟩⟩
      cases he : e.isSigstoreError with
      | false =>
        rw [if_neg (by simp)]
        unfold mainHandler handlerSaid
        dsimp only
        rw [he]
        exact .raised hnot he
      | true =>
        rw [if_pos rfl]
        cases verbose with
        | false =>
          refine .failed hnot he hn ?_
          rfl
        | true =>
          have e1 : mainHandler true (.error (logAndExit true e) : Py Unit) = .error e := by
            show (if e.isSigstoreError = true then (.error (logAndExit true e) : Py Unit) else .error e) = _
            rw [if_pos he]; rfl
          have e2 : handlerSaid true (.error (logAndExit true e)) = [reportSaid true e] := by
            show (if e.isSigstoreError = true then [reportSaid true e] else []) = _
            rw [if_pos he]
          dsimp only
          rw [e1, e2]
          exact .failed (verbose := true) hnot he hn rfl
    | ok st =>
      dsimp only
      rw [hdec]
      cases hs : statementSaid (PrintsText cmd) st with
      | error e =>
        dsimp only
        obtain ⟨s, rfl⟩ : ∃ s, st = some s := by
          cases st with
          | none => simp [statementSaid] at hs
          | some s => exact ⟨s, rfl⟩
        unfold statementSaid at hs
        dsimp only at hs
        split at hs
        · rename_i hp
          split at hs
          · rename_i hu
            obtain rfl := Except.error.inj hs
            refine ⟨[], i :: items.map (·.1), [.err ("OK: ".toList ++ i.str)], rfl, by simp, by
              simp [handlerSaid, Exc.isSigstoreError], .inr ⟨i, _, rfl, ?_⟩⟩
            unfold mainHandler
            simp only [Exc.isSigstoreError, Bool.false_eq_true, if_false]
            refine .unprintable ⟨some s.contents, (hver _).2 ⟨some s, hv, rfl⟩⟩ ?_ hn
            intro ht
            obtain ⟨t, ht⟩ := ht s.contents ((hver _).2 ⟨some s, hv, rfl⟩) hp
            rw [ht, utf8Decode_utf8] at hu
            simp at hu
          · simp at hs
        · simp at hs
      | ok lines =>
        dsimp only
        obtain ⟨done, rest, tail, h1, h2, h3, h4⟩ := ih fun x hx => hall x (by simp [hx])
        rw [hdec] at h3 h4
        refine ⟨(i, st.map (·.contents), .err ("OK: ".toList ++ i.str) :: lines) :: done, rest, tail, ?_, ?_, ?_, ?_⟩
        · simp only [List.map_cons, List.cons_append, h1]
        · intro x hx
          rcases List.mem_cons.1 hx with rfl | hx
          · refine ⟨(hver _).2 ⟨st, hv, rfl⟩, i.str, hn, ?_⟩
            cases st with
            | none =>
              rw [← Except.ok.inj hs]
              rfl
            | some s =>
              unfold statementSaid at hs
              dsimp only at hs
              show ∃ line, PrintedAs cmd s.contents line ∧ _
              cases cmd with
              | identity a b =>
                rw [if_pos (by rfl)] at hs
                split at hs
                · simp at hs
                · rename_i t ht
                  exact ⟨t, (utf8Decode_eq_some_iff _ _).1 ht, by rw [← Except.ok.inj hs]⟩
              | github a =>
                rw [if_neg (by simp [PrintsText])] at hs
                exact ⟨_, bytesRepr_literal s.contents, by rw [← Except.ok.inj hs]⟩
          · exact h2 x hx
        · simp only [List.cons_append, List.append_assoc, List.flatMap_cons]
          rw [h3]
        · exact h4

theorem items_keys {venv : VerifyEnv} {fs : Fs} {map : Dict VerifyInput Materials}
    {items : List (VerifyInput × Hashed × Bundle)} (h : List.Forall₂ (ItemFor venv fs) map items) :
    items.map (·.1) = map.keys := by
  induction h with
  | nil => rfl
  | cons h _ ih =>
    exact congrArg₂ List.cons h.1 ih

/-- **C106** Whatever happens, `sigstore verify` either writes nothing but the error that stopped it before it verified any
input, and fails; or the arguments stand for inputs that all have their materials, and, in the order of their first mention and
up to the first input that is not verified, it writes `OK` and the name of the input to standard error, and the statement of an
attestation to standard output; then it says `FAIL` and which input was not verified, or succeeds if there is none. -/
theorem C106_report (venv : VerifyEnv) (fs : Fs) (now : Time) (cmd : VerifyCommand) (verbose : Bool) (positional : List Str)
    (certificate signature bundle : Option Path) (trust : TrustArgs) (w : VerifyWorld) :
    ∃ r w' said, verifyMainSaid venv fs now cmd verbose positional certificate signature bundle trust w = (r, w', said) ∧
    ((r ≠ .ok () ∧ (said = [] ∨ ∃ e, said = [.log 40 (.diagnostics e verbose)])) ∨
     ∃ inputs config certs policy, List.Forall₂ (ArgDenotes fs) positional inputs ∧
       (getTrustConfig fs venv.tuf venv.parsers trust w.tuf).1 = .ok config ∧ getFulcioCerts now config.root = .ok certs ∧
       cmd.policy = .ok policy ∧ Consistent ⟨inputs, certificate, signature, bundle, trust⟩ ∧
       Reported venv fs now cmd verbose ⟨inputs, certificate, signature, bundle, trust⟩ ⟨config.root, certs⟩ policy.verify r
         said) := by
  have hfail : ∀ e, mainHandler verbose (.error e : Py Unit) ≠ .ok () := by
    intro e
    unfold mainHandler
    dsimp only
    split <;> simp
  have hsaid : ∀ e, [] ++ handlerSaid verbose (.error e) = [] ∨
      ∃ e', [] ++ handlerSaid verbose (.error e) = [Said.log 40 (.diagnostics e' verbose)] := by
    intro e
    unfold handlerSaid
    dsimp only
    split
    · exact .inr ⟨e, rfl⟩
    · exact .inl rfl
  unfold verifyMainSaid
  cases hpos : positional with
  | nil => exact ⟨_, _, _, rfl, .inl ⟨by simp, .inl rfl⟩⟩
  | cons a as =>
    dsimp only
    cases hin : parseInputs fs (a :: as) with
    | error e => exact ⟨_, _, _, rfl, .inl ⟨by simp, .inl rfl⟩⟩
    | ok inputs =>
      have hden := (parseInputs_iff _ _ _).1 hin
      dsimp only
      refine ⟨_, _, _, rfl, ?_⟩
      unfold verifyCommandSaid
      cases hp : cmd.policy with
      | error e => exact .inl ⟨hfail e, hsaid e⟩
      | ok policy =>
        dsimp only
        cases hc : collectState venv fs now ⟨inputs, certificate, signature, bundle, trust⟩ w with
        | mk r w' =>
          cases r with
          | error e => exact .inl ⟨hfail e, hsaid e⟩
          | ok r =>
            obtain ⟨v, items⟩ := r
            dsimp only
            obtain ⟨map, config, h1, h2, h3, h4, h5⟩ := (collectState_iff venv fs now _ w v items).1 (by rw [hc])
            obtain ⟨hcons, _, _, hmat⟩ := inputMap_ok _ _ _ h1
            obtain ⟨_, h7⟩ := (trustedRoot_iff _ _).1 h3
            obtain ⟨_, _, h9⟩ := (verifierInit_iff _ _ _).1 h4
            obtain ⟨vr, vc⟩ := v
            dsimp only at h7 h9
            subst h7
            refine .inr ⟨inputs, config, vc, policy, hden, h2, h9, rfl, hcons, ?_⟩
            have hkeys : items.map (·.1) = Mentioned inputs := by
              have hk := inputMap_keys h1
              dsimp only at hk
              rw [← hk, items_keys h5]
            obtain ⟨done, rest, tail, g1, g2, g3, g4⟩ := loop_reported venv fs now cmd verbose
              ⟨inputs, certificate, signature, bundle, trust⟩ ⟨config.root, vc⟩ policy.verify items (by
                intro y hy
                obtain ⟨x, hx, hxy⟩ := forall₂_mem_right h5 y hy
                obtain ⟨k1, k2⟩ := hmat x.1 x.2 hx
                obtain ⟨arg, _, ha⟩ := forall₂_mem_right hden x.1 k1
                obtain ⟨e1, e2, e3⟩ := hxy
                rw [e1]
                exact ⟨names_str ha, x.2, k2, e2, e3⟩)
            exact ⟨done, rest, tail, by rw [← hkeys]; exact g1, g2, g3, g4⟩

/-! ## Consequences -/

theorem said_cases {venv : VerifyEnv} {fs : Fs} {now : Time} {cmd : VerifyCommand} {verbose : Bool} {args : VerifyArgs}
    {v : Verifier} {policy : Cert → Py Unit} {r : Py Unit} {said : List Said}
    (h : Reported venv fs now cmd verbose args v policy r said) {x : Said} (hx : x ∈ said) :
    (∃ i ∈ args.inputs, ∃ p lines, VerifiedWith venv fs now args v policy i p ∧ OkLines cmd i p lines ∧ x ∈ lines) ∨
    (∃ i ∈ args.inputs, ∃ tail, Stops verbose i (∃ p, VerifiedWith venv fs now args v policy i p)
         (∀ p, VerifiedWith venv fs now args v policy i (some p) → PrintsText cmd = true → ∃ t, p = utf8 t) r tail ∧
       x ∈ tail) := by
  obtain ⟨done, rest, tail, h1, h2, rfl, h4⟩ := h
  have hmem : ∀ i ∈ done.map (·.1) ++ rest, i ∈ args.inputs := by
    intro i hi
    rw [← h1] at hi
    simpa [Mentioned] using hi
  rcases List.mem_append.1 hx with hx | hx
  · obtain ⟨y, hy, hx⟩ := List.mem_flatMap.1 hx
    exact .inl ⟨y.1, hmem _ (List.mem_append_left _ (List.mem_map_of_mem hy)), y.2.1, y.2.2, (h2 y hy).1, (h2 y hy).2, hx⟩
  · rcases h4 with ⟨_, _, rfl⟩ | ⟨i, rest', rfl, hs⟩
    · simp at hx
    · exact .inr ⟨i, hmem _ (by simp), tail, hs, hx⟩

theorem okLines_cases {cmd : VerifyCommand} {i : VerifyInput} {p : Option Bytes} {lines : List Said} (h : OkLines cmd i p lines)
    {x : Said} (hx : x ∈ lines) :
    (∃ name, Names name i ∧ x = .err ("OK: ".toList ++ name)) ∨ ∃ bytes line, p = some bytes ∧ PrintedAs cmd bytes line ∧
      x = .out line := by
  obtain ⟨name, hn, h⟩ := h
  cases p with
  | none =>
    dsimp only at h
    subst h
    exact .inl ⟨name, hn, List.mem_singleton.1 hx⟩
  | some bytes =>
    dsimp only at h
    obtain ⟨line, hl, rfl⟩ := h
    rcases List.mem_cons.1 hx with rfl | hx
    · exact .inl ⟨name, hn, rfl⟩
    · exact .inr ⟨bytes, line, rfl, hl, List.mem_singleton.1 hx⟩

theorem stops_cases {verbose : Bool} {i : VerifyInput} {verified text : Prop} {r : Py Unit} {tail : List Said}
    (h : Stops verbose i verified text r tail) {x : Said} (hx : x ∈ tail) :
    (verified ∧ ∃ name, Names name i ∧ x = .err ("OK: ".toList ++ name)) ∨
    (¬ verified ∧ exitStatus r = 1 ∧ ∃ level msg, x = .log level msg ∧ ∀ s, msg = .text s →
      s = "A certificate chain was not valid, are you using the correct Sigstore instance?".toList ∧ level = 30 ∨
      ∃ name, Names name i ∧ s = "FAIL: ".toList ++ name) := by
  cases h with
  | failed hv he hn hs =>
    rename_i e name
    subst hs
    refine .inr ⟨hv, ?_, ?_⟩
    · cases verbose with
      | false => rfl
      | true =>
        rw [if_pos rfl]
        cases e <;> first | rfl | (exfalso; simp [Exc.isSigstoreError] at he)
    · rcases List.mem_append.1 hx with hx | hx
      · rcases List.mem_append.1 hx with hx | hx
        · split at hx
          · exact ⟨_, _, List.mem_singleton.1 hx, fun s hs => .inl ⟨by cases hs; rfl, rfl⟩⟩
          · exact absurd hx (by simp)
        · rcases List.mem_cons.1 hx with rfl | hx
          · exact ⟨_, _, rfl, fun s hs => .inr ⟨name, hn, by cases hs; rfl⟩⟩
          · exact ⟨_, _, List.mem_singleton.1 hx, fun s hs => by cases hs⟩
      · split at hx
        · exact ⟨_, _, List.mem_singleton.1 hx, fun s hs => by cases hs⟩
        · exact absurd hx (by simp)
  | raised hv he => exact absurd hx (by simp)
  | unprintable hv ht hn => exact .inl ⟨hv, _, hn, List.mem_singleton.1 hx⟩

/-- **C106** `OK` is only said of an argument whose input was verified under the policy of the command. -/
theorem C106_ok_sound (venv : VerifyEnv) (fs : Fs) (now : Time) (cmd : VerifyCommand) (verbose : Bool) (positional : List Str)
    (certificate signature bundle : Option Path) (trust : TrustArgs) (w : VerifyWorld) {name : Str}
    (h : .err ("OK: ".toList ++ name) ∈
      (verifyMainSaid venv fs now cmd verbose positional certificate signature bundle trust w).2.2) :
    ∃ inputs config certs policy i p, List.Forall₂ (ArgDenotes fs) positional inputs ∧
      (getTrustConfig fs venv.tuf venv.parsers trust w.tuf).1 = .ok config ∧ getFulcioCerts now config.root = .ok certs ∧
      cmd.policy = .ok policy ∧ i ∈ inputs ∧ Names name i ∧
      VerifiedWith venv fs now ⟨inputs, certificate, signature, bundle, trust⟩ ⟨config.root, certs⟩ policy.verify i p := by
  obtain ⟨r, w', said, e, hr⟩ := C106_report venv fs now cmd verbose positional certificate signature bundle trust w
  rw [e] at h
  dsimp only at h
  rcases hr with ⟨_, rfl | ⟨e, rfl⟩⟩ | ⟨inputs, config, certs, policy, h1, h2, h3, h4, _, h5⟩
  · exact absurd h (by simp)
  · exact nomatch List.mem_singleton.1 h
  · rcases said_cases h5 h with ⟨i, hi, p, lines, k1, k2, k3⟩ | ⟨i, hi, tail, k1, k2⟩
    · rcases okLines_cases k2 k3 with ⟨n, hn, en⟩ | ⟨_, _, _, _, en⟩
      · obtain rfl := List.append_cancel_left (Said.err.inj en)
        exact ⟨inputs, config, certs, policy, i, p, h1, h2, h3, h4, hi, hn, k1⟩
      · exact nomatch en
    · rcases stops_cases k1 k2 with ⟨⟨p, hv⟩, n, hn, en⟩ | ⟨_, _, _, _, en, _⟩
      · obtain rfl := List.append_cancel_left (Said.err.inj en)
        exact ⟨inputs, config, certs, policy, i, p, h1, h2, h3, h4, hi, hn, hv⟩
      · exact nomatch en

/-- **C106** Whatever is written to standard output is the statement of an attestation that was verified for an argument, even
if the command fails afterwards. -/
theorem C106_stdout_sound (venv : VerifyEnv) (fs : Fs) (now : Time) (cmd : VerifyCommand) (verbose : Bool)
    (positional : List Str) (certificate signature bundle : Option Path) (trust : TrustArgs) (w : VerifyWorld) {line : Str}
    (h : .out line ∈ (verifyMainSaid venv fs now cmd verbose positional certificate signature bundle trust w).2.2) :
    ∃ inputs config certs policy i payload, List.Forall₂ (ArgDenotes fs) positional inputs ∧
      (getTrustConfig fs venv.tuf venv.parsers trust w.tuf).1 = .ok config ∧ getFulcioCerts now config.root = .ok certs ∧
      cmd.policy = .ok policy ∧ i ∈ inputs ∧
      VerifiedWith venv fs now ⟨inputs, certificate, signature, bundle, trust⟩ ⟨config.root, certs⟩ policy.verify i
        (some payload) ∧ PrintedAs cmd payload line := by
  obtain ⟨r, w', said, e, hr⟩ := C106_report venv fs now cmd verbose positional certificate signature bundle trust w
  rw [e] at h
  dsimp only at h
  rcases hr with ⟨_, rfl | ⟨e, rfl⟩⟩ | ⟨inputs, config, certs, policy, h1, h2, h3, h4, _, h5⟩
  · exact absurd h (by simp)
  · exact nomatch List.mem_singleton.1 h
  · rcases said_cases h5 h with ⟨i, hi, p, lines, k1, k2, k3⟩ | ⟨i, hi, tail, k1, k2⟩
    · rcases okLines_cases k2 k3 with ⟨_, _, en⟩ | ⟨bytes, l, rfl, hl, en⟩
      · exact nomatch en
      · obtain rfl := Said.out.inj en
        exact ⟨inputs, config, certs, policy, i, bytes, h1, h2, h3, h4, hi, k1, hl⟩
    · rcases stops_cases k1 k2 with ⟨_, _, _, en⟩ | ⟨_, _, _, _, en, _⟩
      · exact nomatch en
      · exact nomatch en

theorem hint_not_fail (name : Str) :
    "A certificate chain was not valid, are you using the correct Sigstore instance?".toList ≠ "FAIL: ".toList ++ name := by
  intro e
  have : some 'A' = some 'F' := congrArg List.head? e
  exact absurd this (by decide)

theorem fail_cases {venv : VerifyEnv} {fs : Fs} {now : Time} {cmd : VerifyCommand} {verbose : Bool}
    {positional : List Str} {certificate signature bundle : Option Path} {trust : TrustArgs} {w : VerifyWorld} {name : Str}
    {level : Nat}
    (h : .log level (.text ("FAIL: ".toList ++ name)) ∈
      (verifyMainSaid venv fs now cmd verbose positional certificate signature bundle trust w).2.2) :
    exitStatus (verifyMainSaid venv fs now cmd verbose positional certificate signature bundle trust w).1 = 1 ∧
    ∃ inputs config certs policy i, List.Forall₂ (ArgDenotes fs) positional inputs ∧
      (getTrustConfig fs venv.tuf venv.parsers trust w.tuf).1 = .ok config ∧ getFulcioCerts now config.root = .ok certs ∧
      cmd.policy = .ok policy ∧ Consistent ⟨inputs, certificate, signature, bundle, trust⟩ ∧ i ∈ inputs ∧ Names name i ∧
      ∀ p, ¬ VerifiedWith venv fs now ⟨inputs, certificate, signature, bundle, trust⟩ ⟨config.root, certs⟩ policy.verify i
        p := by
  obtain ⟨r, w', said, e, hr⟩ := C106_report venv fs now cmd verbose positional certificate signature bundle trust w
  rw [e] at h ⊢
  dsimp only at h ⊢
  rcases hr with ⟨_, rfl | ⟨e, rfl⟩⟩ | ⟨inputs, config, certs, policy, h1, h2, h3, h4, h0, h5⟩
  · exact absurd h (by simp)
  · exact nomatch List.mem_singleton.1 h
  · rcases said_cases h5 h with ⟨i, hi, p, lines, k1, k2, k3⟩ | ⟨i, hi, tail, k1, k2⟩
    · rcases okLines_cases k2 k3 with ⟨_, _, en⟩ | ⟨_, _, _, _, en⟩
      · exact nomatch en
      · exact nomatch en
    · rcases stops_cases k1 k2 with ⟨_, _, _, en⟩ | ⟨hv, hst, l, msg, en, hm⟩
      · exact nomatch en
      · obtain ⟨rfl, hmsg⟩ := Said.log.inj en
        rcases hm _ hmsg.symm with ⟨hc, _⟩ | ⟨n, hn, hs⟩
        · exact absurd hc.symm (hint_not_fail name)
        · obtain rfl := List.append_cancel_left hs
          exact ⟨hst, inputs, config, certs, policy, i, h1, h2, h3, h4, h0, hi, hn, fun p hp => hv ⟨p, hp⟩⟩

/-- **C106** `FAIL` is only said of an argument whose input was not verified, and then the exit status is 1. -/
theorem C106_fail_sound (venv : VerifyEnv) (fs : Fs) (now : Time) (cmd : VerifyCommand) (verbose : Bool)
    (positional : List Str) (certificate signature bundle : Option Path) (trust : TrustArgs) (w : VerifyWorld) {name : Str}
    {level : Nat}
    (h : .log level (.text ("FAIL: ".toList ++ name)) ∈
      (verifyMainSaid venv fs now cmd verbose positional certificate signature bundle trust w).2.2) :
    exitStatus (verifyMain venv fs now cmd verbose positional certificate signature bundle trust w).1 = 1 ∧
    ∃ inputs config certs policy i, List.Forall₂ (ArgDenotes fs) positional inputs ∧
      (getTrustConfig fs venv.tuf venv.parsers trust w.tuf).1 = .ok config ∧ getFulcioCerts now config.root = .ok certs ∧
      cmd.policy = .ok policy ∧ i ∈ inputs ∧ Names name i ∧
      ∀ p, ¬ VerifiedWith venv fs now ⟨inputs, certificate, signature, bundle, trust⟩ ⟨config.root, certs⟩ policy.verify i
        p := by
  obtain ⟨h0, inputs, config, certs, policy, i, h1, h2, h3, h4, _, h5⟩ := fail_cases h
  rw [verifyMainSaid_refines]
  exact ⟨h0, inputs, config, certs, policy, i, h1, h2, h3, h4, h5⟩

theorem names_unique {inputs : List VerifyInput} {certificate signature bundle : Option Path} {trust : TrustArgs}
    (hc : Consistent ⟨inputs, certificate, signature, bundle, trust⟩) {i j : VerifyInput} (hi : i ∈ inputs) (hj : j ∈ inputs)
    {name : Str} (h1 : Names name i) (h2 : Names name j) : i = j := by
  have single : ∀ d, .digest d ∈ inputs → i = j := by
    intro d hd
    have hl : inputs.length ≤ 1 := by
      refine hc.single ?_
      rcases hc.digests d hd with hb | ⟨hb, _⟩
      · exact .inr (.inr hb)
      · exact .inl hb
    cases inputs with
    | nil => simp at hi
    | cons a as =>
      cases as with
      | nil => rw [List.mem_singleton.1 hi, List.mem_singleton.1 hj]
      | cons b bs => simp at hl
  cases i with
  | digest d => exact single d hi
  | file p =>
    cases j with
    | digest d => exact single d hj
    | file q =>
      cases h1 with
      | file _ e1 =>
        cases h2 with
        | file _ e2 => rw [← e1, ← e2]

/-- **C106** No argument is both `OK` and `FAIL`. -/
theorem C106_not_both (venv : VerifyEnv) (fs : Fs) (now : Time) (cmd : VerifyCommand) (verbose : Bool)
    (positional : List Str) (certificate signature bundle : Option Path) (trust : TrustArgs) (w : VerifyWorld) {name : Str}
    {level : Nat}
    (h : .log level (.text ("FAIL: ".toList ++ name)) ∈
      (verifyMainSaid venv fs now cmd verbose positional certificate signature bundle trust w).2.2) :
    .err ("OK: ".toList ++ name) ∉
      (verifyMainSaid venv fs now cmd verbose positional certificate signature bundle trust w).2.2 := by
  intro hok
  obtain ⟨_, inputs, config, certs, policy, i, h1, h2, h3, h4, h0, hi, hn, hv⟩ := fail_cases h
  obtain ⟨inputs', config', certs', policy', j, p, k1, k2, k3, k4, hj, kn, kv⟩ := C106_ok_sound _ _ _ _ _ _ _ _ _ _ _ hok
  have e1 : inputs' = inputs := by
    have := (parseInputs_iff _ _ _).2 k1
    rw [(parseInputs_iff _ _ _).2 h1] at this
    exact (Except.ok.inj this).symm
  subst e1
  rw [h2] at k2
  obtain rfl := Except.ok.inj k2
  rw [h3] at k3
  obtain rfl := Except.ok.inj k3
  rw [h4] at k4
  obtain rfl := Except.ok.inj k4
  obtain rfl := names_unique h0 hi hj hn kn
  exact hv p kv

/-- **C106** If the command succeeds, it says `OK` of every argument, and prints every statement. -/
theorem C106_success (venv : VerifyEnv) (fs : Fs) (now : Time) (cmd : VerifyCommand) (verbose : Bool)
    (positional : List Str) (certificate signature bundle : Option Path) (trust : TrustArgs) (w : VerifyWorld)
    (h : (verifyMain venv fs now cmd verbose positional certificate signature bundle trust w).1 = .ok ()) :
    ∃ inputs, List.Forall₂ (ArgDenotes fs) positional inputs ∧ ∃ config certs policy,
      (getTrustConfig fs venv.tuf venv.parsers trust w.tuf).1 = .ok config ∧ getFulcioCerts now config.root = .ok certs ∧
      cmd.policy = .ok policy ∧ ∃ done : List (VerifyInput × Option Bytes × List Said),
        done.map (·.1) = Mentioned inputs ∧
        (∀ x ∈ done, VerifiedWith venv fs now ⟨inputs, certificate, signature, bundle, trust⟩ ⟨config.root, certs⟩
          policy.verify x.1 x.2.1 ∧ OkLines cmd x.1 x.2.1 x.2.2) ∧
        (verifyMainSaid venv fs now cmd verbose positional certificate signature bundle trust w).2.2 =
          done.flatMap (·.2.2) := by
  rw [verifyMainSaid_refines] at h
  dsimp only at h
  obtain ⟨r, w', said, e, hr⟩ := C106_report venv fs now cmd verbose positional certificate signature bundle trust w
  rw [e] at h ⊢
  dsimp only at h ⊢
  rcases hr with ⟨hne, _⟩ | ⟨inputs, config, certs, policy, h1, h2, h3, h4, _, done, rest, tail, g1, g2, g3, g4⟩
  · exact absurd h hne
  · rcases g4 with ⟨rfl, _, rfl⟩ | ⟨i, rest', rfl, hs⟩
    · exact ⟨inputs, h1, config, certs, policy, h2, h3, h4, done, by rw [g1, List.append_nil], g2, by rw [g3, List.append_nil]⟩
    · rw [h] at hs
      exact nomatch hs

theorem literalBody_length {q : Char} {s : Str} {bs : Bytes} (h : LiteralBody q s bs) : bs.length ≤ s.length := by
  induction h with
  | nil => exact Nat.le_refl _
  | plain _ _ _ _ _ ih => exact Nat.succ_le_succ ih
  | escape _ _ ih => exact Nat.le_succ_of_le (Nat.succ_le_succ ih)
  | hex _ _ _ ih =>
    simp only [List.length_cons]
    omega

/-- **C106** So what `verify github` writes is never the statement itself: its line is not the text of any statement that was
verified. -/
theorem C106_github_not_statement {g : GithubArgs} {payload : Bytes} {line : Str} (h : PrintedAs (.github g) payload line) :
    utf8 line ≠ payload ∧ line.head? = some 'b' := by
  obtain ⟨q, body, _, rfl, hb⟩ := h
  refine ⟨fun he => ?_, rfl⟩
  have h1 := length_le_length_utf8 ('b' :: q :: (body ++ [q]))
  have h2 := literalBody_length hb
  rw [he] at h1
  simp only [List.length_cons, List.length_append, List.length_nil] at h1
  omega

end Sigstore.Props
