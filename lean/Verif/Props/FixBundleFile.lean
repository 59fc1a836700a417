import Verif.Props.CliMain
import Verif.Props.Bundle
import Verif.Props.CliSignJobs

/-!
# C93: what `sigstore plumbing fix-bundle` prints and writes
-/

namespace Sigstore.Props

open Sigstore.Trust Sigstore.LogEntry Sigstore.Dsse Sigstore.Signing Sigstore.Cli Sigstore.Spec Sigstore.Args

/-- writing either succeeds, or fails at the first write that fails and leaves what was written before -/
theorem writeBytes_spec (e : DiskEnv) (p : Path) (data : Bytes) : ∀ (rest : Bytes) (n : Nat) (d : Disk), data.drop n = rest →
    n ≤ data.length → d (e.resolve p) = some (.file (data.take n)) →
    (writeBytes e p n rest d = (.ok (), Function.update d (e.resolve p) (some (.file data))) ∧
      ∀ m, n ≤ m → m ≤ data.length → e.canPut p m = true) ∨
    ∃ m, n ≤ m ∧ m ≤ data.length ∧ e.canPut p m = false ∧ (∀ k, n ≤ k → k < m → e.canPut p k = true) ∧
      writeBytes e p n rest d = (.error .osError, Function.update d (e.resolve p) (some (.file (data.take m))))
  | [], n, d, hr, hn, hd => by
    rw [writeBytes]
    have hl := List.drop_eq_nil_iff.1 hr
    have hu : d = Function.update d (e.resolve p) (some (.file (data.take n))) := by
      rw [← hd, Function.update_eq_self]
    split
    · rename_i hput
      left
      rw [List.take_of_length_le hl] at hu
      exact ⟨by rw [← hu], fun m h1 h2 => by rw [show m = n by omega]; exact hput⟩
    · rename_i hput
      exact .inr ⟨n, Nat.le_refl _, hn, by simpa using hput, fun k h1 h2 => by omega, by rw [← hu]⟩
  | b :: bs, n, d, hr, hn, hd => by
    have hb : data[n]? = some b := by
      have := congrArg (fun l => l[0]?) hr
      simpa using this
    have hbs : data.drop (n + 1) = bs := by
      rw [← List.drop_drop, hr]
      rfl
    have hw : e.writeByte d p n b = Function.update d (e.resolve p) (some (.file (data.take (n + 1)))) := by
      unfold DiskEnv.writeByte
      rw [hd]
      dsimp only
      rw [putByte_next data n b hb]
    have hu : d = Function.update d (e.resolve p) (some (.file (data.take n))) := by
      rw [← hd, Function.update_eq_self]
    rw [writeBytes]
    split
    · rename_i hput
      rw [hw]
      rcases writeBytes_spec e p data bs (n + 1) _ hbs (List.getElem?_eq_some_iff.1 hb).1 (Function.update_self _ _ _) with
        ⟨h1, h2⟩ | ⟨m, h1, h2, h3, h4, h5⟩
      · refine .inl ⟨by rw [h1, Function.update_idem], fun m h3 h4 => ?_⟩
        rcases Nat.eq_or_lt_of_le h3 with rfl | h3
        · exact hput
        · exact h2 m h3 h4
      · refine .inr ⟨m, by omega, h2, h3, fun k h6 h7 => ?_, by rw [h5, Function.update_idem]⟩
        rcases Nat.eq_or_lt_of_le h6 with rfl | h6
        · exact hput
        · exact h4 k h6 h7
    · rename_i hput
      exact .inr ⟨n, Nat.le_refl _, hn, by simpa using hput, fun k h1 h2 => by omega, by rw [← hu]⟩

/-- what `write_text` does, in all cases -/
theorem writeText_cases (e : DiskEnv) (encode : Str → Option Bytes) (p : Path) (text : Str) (d : Disk)
    (hf : d (e.resolve p) ≠ some .dir) :
    (e.canWrite p = false ∧ writeText e encode p text d = (.error .osError, d)) ∨
    (e.canWrite p = true ∧ encode text = none ∧
      writeText e encode p text d = (.error .valueError, Function.update d (e.resolve p) (some (.file [])))) ∨
    (∃ data, e.canWrite p = true ∧ encode text = some data ∧ (∀ m ≤ data.length, e.canPut p m = true) ∧
      writeText e encode p text d = (.ok (), Function.update d (e.resolve p) (some (.file data)))) ∨
    ∃ data m, e.canWrite p = true ∧ encode text = some data ∧ m ≤ data.length ∧ e.canPut p m = false ∧
      (∀ k < m, e.canPut p k = true) ∧
      writeText e encode p text d = (.error .osError, Function.update d (e.resolve p) (some (.file (data.take m)))) := by
  cases hw : e.canWrite p with
  | false =>
    left
    refine ⟨rfl, ?_⟩
    unfold writeText DiskEnv.openW
    cases hd : d (e.resolve p) with
    | none => dsimp only; rw [hw]; rfl
    | some n =>
      cases n with
      | file c => dsimp only; rw [hw]; rfl
      | dir => exact absurd hd hf
  | true =>
    right
    have ho : e.openW d p = .ok (Function.update d (e.resolve p) (some (.file []))) := by
      unfold DiskEnv.openW
      cases hd : d (e.resolve p) with
      | none => dsimp only; rw [hw]; rfl
      | some n =>
        cases n with
        | file c => dsimp only; rw [hw]; rfl
        | dir => exact absurd hd hf
    unfold writeText
    rw [ho]
    dsimp only
    cases he : encode text with
    | none => exact .inl ⟨rfl, rfl, rfl⟩
    | some data =>
      right
      dsimp only
      rcases writeBytes_spec e p data data 0 (Function.update d (e.resolve p) (some (.file []))) rfl (Nat.zero_le _)
          (Function.update_self _ _ _) with ⟨h1, h2⟩ | ⟨m, _, h2, h3, h4, h5⟩
      · exact .inl ⟨data, rfl, rfl, fun m hm => h2 m (Nat.zero_le _) hm, by rw [h1, Function.update_idem]⟩
      · exact .inr ⟨data, m, rfl, rfl, h2, h3, fun k hk => h4 k (Nat.zero_le _) hk, by rw [h5, Function.update_idem]⟩

/-- the fixed bundle of a file -/
def Fixed (libs : MainLibs) (s : MainState) (path : Path) (staging upgrade : Bool) (b : Bundle) : Prop :=
  ∃ content m, s.sign.disk (libs.sign.disk.resolve path) = some (.file content) ∧ libs.sign.disk.canRead path = true ∧
    libs.parseBundle content = .ok m ∧ fixBundle libs.sign.env (libs.fetch staging) upgrade m = .ok b

theorem fixBundleMain_cases (libs : MainLibs) (path : Path) (staging upgrade inPlace : Bool) (s : MainState) :
    (∃ b, Fixed libs s path staging upgrade b ∧ fixBundleMain libs path staging upgrade inPlace s =
      (if inPlace then
        ((writeText libs.sign.disk libs.localeEncode path (libs.sign.toJson b) s.sign.disk).1,
         { s with sign := { s.sign with disk :=
          (writeText libs.sign.disk libs.localeEncode path (libs.sign.toJson b) s.sign.disk).2 } })
       else (.ok (), { s with stdout := s.stdout ++ [libs.sign.toJson b] }))) ∨
    ((∀ b, ¬ Fixed libs s path staging upgrade b) ∧
      ∃ e, fixBundleMain libs path staging upgrade inPlace s = (.error e, s)) := by
  unfold fixBundleMain
  cases hr : libs.sign.disk.read s.sign.disk path with
  | error e =>
    refine .inr ⟨?_, e, rfl⟩
    rintro b ⟨c, m, h1, h2, _⟩
    unfold DiskEnv.read at hr
    rw [h1] at hr
    dsimp only at hr
    rw [if_pos h2] at hr
    cases hr
  | ok bytes =>
    have hread : s.sign.disk (libs.sign.disk.resolve path) = some (.file bytes) ∧ libs.sign.disk.canRead path = true := by
      unfold DiskEnv.read at hr
      split at hr
      · rename_i c hc
        split at hr
        · rename_i hcr
          rw [← Except.ok.inj hr]
          exact ⟨hc, hcr⟩
        · cases hr
      · cases hr
    dsimp only
    cases hp : libs.parseBundle bytes with
    | error e =>
      refine .inr ⟨?_, e, rfl⟩
      rintro b ⟨c, m, h1, _, h3, _⟩
      rw [hread.1] at h1
      obtain rfl := Node.file.inj (Option.some.inj h1)
      rw [hp] at h3
      cases h3
    | ok m =>
      dsimp only
      cases hx : fixBundle libs.sign.env (libs.fetch staging) upgrade m with
      | error e =>
        refine .inr ⟨?_, e, rfl⟩
        rintro b ⟨c, m', h1, _, h3, h4⟩
        rw [hread.1] at h1
        obtain rfl := Node.file.inj (Option.some.inj h1)
        rw [hp] at h3
        obtain rfl := Except.ok.inj h3
        rw [hx] at h4
        cases h4
      | ok b => exact .inl ⟨b, ⟨bytes, m, hread.1, hread.2, hp, hx⟩, by cases inPlace <;> rfl⟩

/-- the fixed bundle is determined -/
theorem fixed_unique {libs : MainLibs} {s : MainState} {path : Path} {staging upgrade : Bool} {a b : Bundle}
    (h : Fixed libs s path staging upgrade a) (h' : Fixed libs s path staging upgrade b) : a = b := by
  obtain ⟨c, m, h1, _, h3, h4⟩ := h
  obtain ⟨c', m', g1, _, g3, g4⟩ := h'
  rw [h1] at g1
  obtain rfl := Node.file.inj (Option.some.inj g1)
  rw [h3] at g3
  obtain rfl := Except.ok.inj g3
  rw [h4] at g4
  exact Except.ok.inj g4

/-- **C93** Without `--in-place` the command succeeds exactly if the bundle can be fixed.  It then prints the fixed bundle; in
any case no file changes. -/
theorem C93_print_iff (libs : MainLibs) (path : Path) (staging upgrade : Bool) (s : MainState) :
    (∀ s', fixBundleMain libs path staging upgrade false s = (.ok (), s') ↔
      ∃ b, Fixed libs s path staging upgrade b ∧ s' = { s with stdout := s.stdout ++ [libs.sign.toJson b] }) ∧
    (∀ e s', fixBundleMain libs path staging upgrade false s = (.error e, s') → s' = s) ∧
    (fixBundleMain libs path staging upgrade false s).2.sign = s.sign := by
  rcases fixBundleMain_cases libs path staging upgrade false s with ⟨b, hb, h⟩ | ⟨hn, e, h⟩
  · rw [h, if_neg (by decide)]
    refine ⟨?_, ?_, rfl⟩
    · intro s'
      constructor
      · intro h'
        exact ⟨b, hb, (congrArg Prod.snd h').symm⟩
      · rintro ⟨b', hb', rfl⟩
        rw [fixed_unique hb' hb]
    · intro e s' h'
      cases congrArg Prod.fst h'
  · rw [h]
    refine ⟨?_, ?_, rfl⟩
    · intro s'
      constructor
      · intro h'
        cases congrArg Prod.fst h'
      · rintro ⟨b', hb', _⟩
        exact absurd hb' (hn b')
    · intro e s' h'
      exact (congrArg Prod.snd h').symm

theorem fixed_not_dir {libs : MainLibs} {s : MainState} {path : Path} {staging upgrade : Bool} {b : Bundle}
    (h : Fixed libs s path staging upgrade b) : s.sign.disk (libs.sign.disk.resolve path) ≠ some .dir := by
  obtain ⟨c, m, h1, _⟩ := h
  rw [h1]
  intro h'
  cases h'

/-- **C93** With `--in-place` the command succeeds exactly if the bundle can be fixed, its text can be encoded, and the file can
be written, each byte of it.  The file then has exactly the encoded text, and nothing else changes. -/
theorem C93_in_place_iff (libs : MainLibs) (path : Path) (staging upgrade : Bool) (s s' : MainState) :
    fixBundleMain libs path staging upgrade true s = (.ok (), s') ↔
      ∃ b data, Fixed libs s path staging upgrade b ∧ libs.localeEncode (libs.sign.toJson b) = some data ∧
        libs.sign.disk.canWrite path = true ∧ (∀ m ≤ data.length, libs.sign.disk.canPut path m = true) ∧
        s' = { s with sign := { s.sign with
          disk := Function.update s.sign.disk (libs.sign.disk.resolve path) (some (.file data)) } } := by
  rcases fixBundleMain_cases libs path staging upgrade true s with ⟨b, hb, h⟩ | ⟨hn, e, h⟩
  · rw [h, if_pos rfl]
    constructor
    · intro h'
      rcases writeText_cases libs.sign.disk libs.localeEncode path (libs.sign.toJson b) s.sign.disk (fixed_not_dir hb) with
        ⟨_, g⟩ | ⟨_, _, g⟩ | ⟨data, g1, g2, g3, g⟩ | ⟨_, _, _, _, _, _, _, g⟩
      · rw [g] at h'; cases congrArg Prod.fst h'
      · rw [g] at h'; cases congrArg Prod.fst h'
      · rw [g] at h'
        exact ⟨b, data, hb, g2, g1, g3, (congrArg Prod.snd h').symm⟩
      · rw [g] at h'; cases congrArg Prod.fst h'
    · rintro ⟨b', data, hb', hd, hw, hput, rfl⟩
      obtain rfl := fixed_unique hb' hb
      rcases writeText_cases libs.sign.disk libs.localeEncode path (libs.sign.toJson b') s.sign.disk (fixed_not_dir hb) with
        ⟨g, _⟩ | ⟨_, g, _⟩ | ⟨data', _, g2, _, g⟩ | ⟨data', m, _, g2, g3, g4, _, _⟩
      · rw [hw] at g; cases g
      · rw [hd] at g; cases g
      · rw [hd] at g2
        obtain rfl := Option.some.inj g2
        rw [g]
      · rw [hd] at g2
        obtain rfl := Option.some.inj g2
        rw [hput m g3] at g4
        cases g4
  · rw [h]
    constructor
    · intro h'
      cases congrArg Prod.fst h'
    · rintro ⟨b', _, hb', _⟩
      exact absurd hb' (hn b')

/-- **C93** (what holds of a failing `--in-place`) As long as every bundle can be encoded in the encoding of the locale and no
write to the open file fails, a failing command changes nothing. -/
theorem C93_in_place_failure_partial (libs : MainLibs) (path : Path) (staging upgrade : Bool) (s s' : MainState) (e : Exc)
    (henc : ∀ b, libs.localeEncode (libs.sign.toJson b) ≠ none) (hput : ∀ n, libs.sign.disk.canPut path n = true)
    (h : fixBundleMain libs path staging upgrade true s = (.error e, s')) : s' = s := by
  rcases fixBundleMain_cases libs path staging upgrade true s with ⟨b, hb, g⟩ | ⟨_, e', g⟩
  · rw [g, if_pos rfl] at h
    rcases writeText_cases libs.sign.disk libs.localeEncode path (libs.sign.toJson b) s.sign.disk (fixed_not_dir hb) with
      ⟨_, g⟩ | ⟨_, g, _⟩ | ⟨_, _, _, _, g⟩ | ⟨_, m, _, _, _, g, _⟩
    · rw [g] at h; exact (congrArg Prod.snd h).symm
    · exact absurd g (henc b)
    · rw [g] at h; cases congrArg Prod.fst h
    · rw [hput m] at g; cases g
  · rw [g] at h
    exact (congrArg Prod.snd h).symm

/-- **C93** (refuted in general) If the text of the fixed bundle cannot be encoded in the encoding of the locale, the command fails
and the bundle is gone: the file is empty. -/
theorem C93_in_place_destroys (libs : MainLibs) (path : Path) (staging upgrade : Bool) (s : MainState) (b : Bundle)
    (hb : Fixed libs s path staging upgrade b) (henc : libs.localeEncode (libs.sign.toJson b) = none)
    (hw : libs.sign.disk.canWrite path = true) :
    (fixBundleMain libs path staging upgrade true s).1 = .error .valueError ∧
    (fixBundleMain libs path staging upgrade true s).2.sign.disk (libs.sign.disk.resolve path) = some (.file []) := by
  rcases fixBundleMain_cases libs path staging upgrade true s with ⟨b', hb', g⟩ | ⟨hn, _⟩
  · obtain rfl := fixed_unique hb' hb
    rw [g, if_pos rfl]
    rcases writeText_cases libs.sign.disk libs.localeEncode path (libs.sign.toJson b') s.sign.disk (fixed_not_dir hb) with
      ⟨g, _⟩ | ⟨_, _, g⟩ | ⟨_, _, g, _⟩ | ⟨_, _, _, g, _⟩
    · rw [hw] at g; cases g
    · rw [g]
      exact ⟨rfl, Function.update_self _ _ _⟩
    · rw [henc] at g; cases g
    · rw [henc] at g; cases g
  · exact absurd hb (hn b)

/-- **C93** (refuted in general, too) If a write fails, as on a full disk, the command fails and the file holds only the beginning
of the fixed bundle that was written before; neither the old nor the new bundle is there. -/
theorem C93_in_place_truncates (libs : MainLibs) (path : Path) (staging upgrade : Bool) (s : MainState) (b : Bundle)
    (hb : Fixed libs s path staging upgrade b) {data : Bytes} (henc : libs.localeEncode (libs.sign.toJson b) = some data)
    (hw : libs.sign.disk.canWrite path = true) {m : Nat} (hm : m ≤ data.length) (hfail : libs.sign.disk.canPut path m = false)
    (hbefore : ∀ k < m, libs.sign.disk.canPut path k = true) :
    (fixBundleMain libs path staging upgrade true s).1 = .error .osError ∧
    (fixBundleMain libs path staging upgrade true s).2.sign.disk (libs.sign.disk.resolve path) =
      some (.file (data.take m)) := by
  rcases fixBundleMain_cases libs path staging upgrade true s with ⟨b', hb', g⟩ | ⟨hn, _⟩
  · obtain rfl := fixed_unique hb' hb
    rw [g, if_pos rfl]
    rcases writeText_cases libs.sign.disk libs.localeEncode path (libs.sign.toJson b') s.sign.disk (fixed_not_dir hb) with
      ⟨g, _⟩ | ⟨_, g, _⟩ | ⟨data', _, g1, g2, _⟩ | ⟨data', m', _, g1, _, g2, g3, g⟩
    · rw [hw] at g; cases g
    · rw [henc] at g; cases g
    · rw [henc] at g1
      obtain rfl := Option.some.inj g1
      rw [g2 m hm] at hfail
      cases hfail
    · rw [henc] at g1
      obtain rfl := Option.some.inj g1
      obtain rfl : m = m' := by
        rcases Nat.lt_trichotomy m m' with h | h | h
        · rw [g3 m h] at hfail; cases hfail
        · exact h
        · rw [hbefore m' h] at g2; cases g2
      rw [g]
      exact ⟨rfl, Function.update_self _ _ _⟩
  · exact absurd hb (hn b)

/-- **C93** Whatever happens, only the named file can change, and nothing else is touched. -/
theorem C93_only_that_file (libs : MainLibs) (path : Path) (staging upgrade inPlace : Bool) (s : MainState) :
    (∀ q, q ≠ libs.sign.disk.resolve path →
      (fixBundleMain libs path staging upgrade inPlace s).2.sign.disk q = s.sign.disk q) ∧
    (fixBundleMain libs path staging upgrade inPlace s).2.sign.tuf = s.sign.tuf ∧
    (fixBundleMain libs path staging upgrade inPlace s).2.sign.world = s.sign.world ∧
    (fixBundleMain libs path staging upgrade inPlace s).2.queries = s.queries := by
  cases inPlace with
  | false =>
    rw [(C93_print_iff libs path staging upgrade s).2.2]
    refine ⟨fun _ _ => rfl, rfl, rfl, ?_⟩
    rcases fixBundleMain_cases libs path staging upgrade false s with ⟨b, _, g⟩ | ⟨_, e, g⟩
    · rw [g, if_neg (by decide)]
    · rw [g]
  | true =>
    rcases fixBundleMain_cases libs path staging upgrade true s with ⟨b, hb, g⟩ | ⟨_, e, g⟩
    · rw [g, if_pos rfl]
      refine ⟨?_, rfl, rfl, rfl⟩
      intro q hq
      rcases writeText_cases libs.sign.disk libs.localeEncode path (libs.sign.toJson b) s.sign.disk (fixed_not_dir hb) with
        ⟨_, g⟩ | ⟨_, _, g⟩ | ⟨_, _, _, _, g⟩ | ⟨_, _, _, _, _, _, _, g⟩
      · rw [g]
      · rw [g]; exact Function.update_of_ne hq _ _
      · rw [g]; exact Function.update_of_ne hq _ _
      · rw [g]; exact Function.update_of_ne hq _ _
    · rw [g]
      exact ⟨fun _ _ => rfl, rfl, rfl, rfl⟩

/-- **C93** Fixing is idempotent: if a bundle was fixed in place, its entry has a checkpoint, and what is written is read back,
then fixing it again, from either log, succeeds and changes nothing. -/
theorem C93_idempotent (libs : MainLibs) (path : Path) (staging staging' : Bool) (s s' : MainState)
    (hread : ∀ (b : Bundle) data, libs.localeEncode (libs.sign.toJson b) = some data → libs.parseBundle data = .ok b.inner)
    (h : fixBundleMain libs path staging false true s = (.ok (), s')) (b : Bundle) (hb : Fixed libs s path staging false b)
    (hc : ∃ proof, b.entry.proof = some proof ∧ proof.checkpoint ≠ none) :
    fixBundleMain libs path staging' false true s' = (.ok (), s') := by
  obtain ⟨b', data, hb', hd, hw, hput, rfl⟩ := (C93_in_place_iff _ _ _ _ _ _).1 h
  obtain rfl := fixed_unique hb' hb
  have hfix : fixBundle libs.sign.env (libs.fetch staging') false b'.inner = .ok b' := by
    obtain ⟨c, m, _, _, _, h4⟩ := hb
    obtain ⟨entry, proof, _, _, hwf, _⟩ := (C63_fix_bundle_iff _ _ _ _).1 h4
    obtain ⟨p, hp, hpc⟩ := hc
    exact (C63_fix_bundle_iff _ _ _ _).2 ⟨b'.entry, p, hwf.oneEntry, hp, hwf, .inl ⟨hpc, rfl⟩⟩
  refine (C93_in_place_iff _ _ _ _ _ _).2 ⟨b', data, ⟨data, b'.inner, ?_, ?_, hread _ _ hd, hfix⟩, hd, hw, hput, ?_⟩
  · exact Function.update_self _ _ _
  · obtain ⟨_, _, _, h2, _⟩ := hb
    exact h2
  · rw [Function.update_idem]

/-- **C93** (what is wrong with the choice of the log) `--instance` and `--trust-config` have no effect: the entry is fetched from
the production log, unless `--staging` is given or switched on. -/
theorem C93_instance_ignored (libs : MainLibs) (o : SignOracle) {environ : Environ} (he : EnvironOk environ)
    {line line' : CommandLine} (s : MainState) (hl : LineOk line) (hl' : LineOk line') (hc : line.command = .fixBundle)
    (hc' : line'.command = .fixBundle) (hs : line.sub = line'.sub)
    (ht : Occurs ["--staging"] line.top ↔ Occurs ["--staging"] line'.top) :
    Cli.main libs o environ line s = Cli.main libs o environ line' s := by
  obtain ⟨ns, h⟩ := (C89_accepted_iff environ line).2 ⟨he, hl⟩
  obtain ⟨p, hp, _⟩ := sub_required h (names := ["--bundle"]) (dest := "bundle") (d := .null) (by rw [hc]; decide)
  have hst := (meaning_trust h none).staging
  have hup := sub_switch h (name := "--upgrade-version") (dest := "upgrade_version") (by rw [hc]; decide)
  have hin := sub_switch h (name := "--in-place") (dest := "in_place") (by rw [hc]; decide)
  rw [C89_fix_bundle libs o s he hl hc hp hst hup hin]
  rw [hs] at hp hup hin
  rw [C89_fix_bundle libs o s he hl' hc' hp (staging := (trustArgsOf ns none).staging) (hst.trans (or_congr_left ht)) hup hin]
  unfold verboseOf
  rw [hs]

/-! ## Concrete runs -/

/-- libraries that read one bundle without a checkpoint from `[1]`; the production log has the complete entry.  The text of a
bundle is one letter; only texts in ASCII can be encoded. -/
def exMainLibs (text : Char) : MainLibs where
  sign := { exSignLibs with env := exEnv, toJson := fun _ => [text] }
  parseBundle b :=
    if b = [1] then .ok { exMsg with tlogEntries := [{ exEntry with proof := some ⟨3, [1], 4, [], none⟩ }] }
    else if b = utf8 [text] then .ok exMsg else .error .pydantic
  loadPem _ := none
  retrieve _ := .error .rekorClient
  fetch staging _ := if staging then .error .rekorClient else .ok exEntry
  int _ := none
  localeEncode t := if t.all fun c => c.toNat < 128 then some (utf8 t) else none

/-- the file `a` -/
def exMainState : MainState := ⟨exSignState [(exPath "a", 1)], [], []⟩

/-- it can be fixed -/
theorem exFixed (c : Char) : Fixed (exMainLibs c) exMainState (exPath "a") false false ⟨exMsg, exLeafCert, exEntry⟩ :=
  ⟨[1], { exMsg with tlogEntries := [{ exEntry with proof := some ⟨3, [1], 4, [], none⟩ }] },
   (by decide +kernel : exDisk [(exPath "a", 1)] (exPath "a") = some (.file [1])), rfl, rfl,
   (by decide : fixBundle exEnv (fun _ => .ok exEntry) false
    { exMsg with tlogEntries := [{ exEntry with proof := some ⟨3, [1], 4, [], none⟩ }] } =
    .ok ⟨exMsg, exLeafCert, exEntry⟩)⟩

/-- printed -/
example (c : Char) : fixBundleMain (exMainLibs c) (exPath "a") false false false exMainState =
    (.ok (), { exMainState with stdout := [[c]] }) :=
  ((C93_print_iff _ _ _ _ _).1 _).2 ⟨_, exFixed c, rfl⟩

/-- fixed in place -/
theorem exFixedInPlace : fixBundleMain (exMainLibs 'B') (exPath "a") false false true exMainState =
    (.ok (), { exMainState with sign := { exMainState.sign with
      disk := Function.update exMainState.sign.disk (exPath "a") (some (.file [66])) } }) :=
  (C93_in_place_iff _ _ _ _ _ _).2 ⟨_, [66], exFixed 'B', by decide +kernel, rfl, fun _ _ => rfl, rfl⟩

/-- and again, even with `--staging` -/
example : fixBundleMain (exMainLibs 'B') (exPath "a") true false true
    { exMainState with sign := { exMainState.sign with
      disk := Function.update exMainState.sign.disk (exPath "a") (some (.file [66])) } } =
    (.ok (), { exMainState with sign := { exMainState.sign with
      disk := Function.update exMainState.sign.disk (exPath "a") (some (.file [66])) } }) := by
  refine (C93_in_place_iff _ _ _ _ _ _).2 ⟨⟨exMsg, exLeafCert, exEntry⟩, [66], ⟨[66], exMsg, ?_, rfl, by decide +kernel, ?_⟩,
    by decide +kernel, rfl, fun _ _ => rfl, ?_⟩
  · decide +kernel
  · decide
  · exact congrArg (fun d => ({ exMainState with sign := { exMainState.sign with disk := d } } : MainState))
      (Function.update_idem (a := exPath "a") _ _ _).symm

/-- with the staging log it fails, and nothing changes -/
example : ∃ e, fixBundleMain (exMainLibs 'B') (exPath "a") true false true exMainState = (.error e, exMainState) :=
  ⟨_, rfl⟩

/-- a letter that the locale does not have destroys the bundle -/
example : (fixBundleMain (exMainLibs 'é') (exPath "a") false false true exMainState).1 = .error .valueError ∧
    (fixBundleMain (exMainLibs 'é') (exPath "a") false false true exMainState).2.sign.disk (exPath "a") = some (.file []) :=
  C93_in_place_destroys _ _ _ _ _ _ (exFixed 'é') (by decide +kernel) rfl

/-- libraries with a disk that is full -/
def exFullMainLibs : MainLibs := { exMainLibs 'B' with
  sign := { (exMainLibs 'B').sign with disk := ⟨id, fun _ => true, fun _ => true, fun _ => true, fun _ _ => false⟩ } }

/-- a full disk destroys the bundle as well -/
example : (fixBundleMain exFullMainLibs (exPath "a") false false true exMainState).1 = .error .osError ∧
    (fixBundleMain exFullMainLibs (exPath "a") false false true exMainState).2.sign.disk (exPath "a") = some (.file []) :=
  C93_in_place_truncates exFullMainLibs (exPath "a") false false exMainState _ (exFixed 'B') (data := [66]) (by decide +kernel)
    rfl (Nat.zero_le _) rfl (fun _ h => absurd h (Nat.not_lt_zero _))

/-- The encoding of a Western Windows: it has the dash that starts every signature of a checkpoint, but not as in UTF-8.  The
command succeeds and writes a file that is not UTF-8. -/
example : ∃ libs : MainLibs, (fixBundleMain libs (exPath "a") false false true exMainState).1 = .ok () ∧
    (fixBundleMain libs (exPath "a") false false true exMainState).2.sign.disk (exPath "a") = some (.file [0x97]) ∧
    utf8Decode [0x97] = none := by
  refine ⟨{ exMainLibs '—' with localeEncode := fun t => if t = ['—'] then some [0x97] else none }, ?_⟩
  have h := (C93_in_place_iff { exMainLibs '—' with localeEncode := fun t => if t = ['—'] then some [0x97] else none }
    (exPath "a") false false exMainState _).2 ⟨_, [0x97], exFixed '—', by decide +kernel, rfl, fun _ _ => rfl, rfl⟩
  rw [h]
  exact ⟨rfl, by decide +kernel, by decide +kernel⟩

end Sigstore.Props
