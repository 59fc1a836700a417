import Verif.Props.CliSignJobs
import Verif.Props.CliExitStatus

/-!
# C43, C46, C71, C72: what `sign` and `attest` leave behind, and whose identity they use
-/

namespace Sigstore.Props

open Sigstore.Trust Sigstore.Dsse Sigstore.Signing Sigstore.Cli Sigstore.Spec

/-- preparing yields a signer with a fresh key and a certificate that was issued for it -/
theorem signPrepare_ok {libs : SignLibs} {o : SignOracle} {trust : TrustArgs} {ident : IdentityArgs} {s s' : SignState}
    {ctx : Context} {signer : Signer} (h : signPrepare libs o trust ident s = (.ok (ctx, signer), s')) :
    ∃ token cert, signer = ⟨some s.world.keys, some cert⟩ ∧ IssuedFor libs.kp (o.first token) s.world.keys cert ∧
      (∃ cfg, signIdentity libs.identity o.now ident cfg = .ok token) ∧
      ∃ w, Signer.init libs.env ctx libs.kp (o.first token) true s.world = (.ok signer, w) := by
  unfold signPrepare at h
  split at h
  · cases h
  rename_i cfg t ht
  dsimp only at h
  split at h
  · cases h
  split at h
  · cases h
  rename_i token htok
  split at h
  · cases h
  rename_i signer' w hi
  split at h
  · cases h
  simp only [Prod.mk.injEq, Except.ok.injEq] at h
  obtain ⟨⟨rfl, rfl⟩, _⟩ := h
  obtain ⟨cert, chain, h1, h2, h3, h4, h5⟩ := (init_cached_iff _ _ _ _ _ _ _).1 hi
  exact ⟨token, cert, h4, ⟨h1, chain, h2⟩, ⟨cfg, htok⟩, w, hi⟩

/-- the conditions on a map of outputs under which its threads do not disturb each other -/
structure MapApart (e : DiskEnv) (map : Dict Path SigningOutputs) : Prop where
  keys : map.keys.Nodup
  within : ∀ f o, (f, o) ∈ map → (o.list.map fun x => e.resolve x.path).Nodup
  across : ∀ f o g o', (f, o) ∈ map → (g, o') ∈ map → f ≠ g → ∀ x ∈ o.list, ∀ y ∈ o'.list, e.resolve x.path ≠ e.resolve y.path
  inputs : ∀ f o g o', (f, o) ∈ map → (g, o') ∈ map → ∀ x ∈ o.list, e.resolve x.path ≠ e.resolve g

theorem jobsOf_get {o : SignOracle} {map : Dict Path SigningOutputs} {i : Nat} {job : Job} (h : (jobsOf o map)[i]? = some job) :
    map[i]? = some (job.file, job.outputs) := by
  unfold jobsOf at h
  rw [List.getElem?_map] at h
  cases hm : map[i]? with
  | none => rw [hm] at h; cases h
  | some p => rw [hm] at h; cases h; rfl

theorem separate_of_apart {je : JobEnv} {o : SignOracle} {map : Dict Path SigningOutputs} (h : MapApart je.disk map) :
    Separate je (jobsOf o map) where
  within job hj := h.within _ _ (mem_jobsOf hj)
  across i j a b ha hb hij := by
    have h1 := jobsOf_get ha
    have h2 := jobsOf_get hb
    refine h.across _ _ _ _ (List.mem_of_getElem? h1) (List.mem_of_getElem? h2) ?_
    intro hf
    have hi : map.keys[i]? = some a.file := by unfold Dict.keys; rw [List.getElem?_map, h1]; rfl
    have hj : map.keys[j]? = some b.file := by unfold Dict.keys; rw [List.getElem?_map, h2]; rfl
    rw [← hf] at hj
    exact hij ((List.getElem?_inj (List.getElem?_eq_some_iff.1 hi).1 h.keys).1 (hi.trans hj.symm))
  inputs a ha b hb := h.inputs _ _ _ _ (mem_jobsOf ha) (mem_jobsOf hb)

/-- what an output of a bundle holds after signing -/
def OutputHolds (libs : SignLibs) (cert : Cert) (d : Disk) (b : Bundle) : Output → Prop
  | .signature p => HoldsSignature libs.disk d b p
  | .certificate p => HoldsCertificate libs.disk d cert p
  | .bundle p => HoldsBundle libs.disk libs.toJson d b p

/-- successful signing: every entry of the map has a bundle, which a call of the signer returned, and its outputs hold it -/
theorem signCommon_calls (libs : SignLibs) (o : SignOracle) (trust : TrustArgs) (ident : IdentityArgs)
    (map : Dict Path SigningOutputs) (predicate : Option (Str × Dict Str Json)) (s : SignState) (hm : MapApart libs.disk map)
    (h : (signCommon libs o trust ident map predicate s).1 = some (.ok ())) :
    ∃ token cert ctx w₁, (∃ cfg, signIdentity libs.identity o.now ident cfg = .ok token) ∧
      IssuedFor libs.kp (o.first token) s.world.keys cert ∧
      Signer.init libs.env ctx libs.kp (o.first token) true s.world = (.ok ⟨some s.world.keys, some cert⟩, w₁) ∧
      ∀ f outs, (f, outs) ∈ map → ∃ content b, s.disk (libs.disk.resolve f) = some (.file content) ∧
        BundleOf libs.env.crypto libs.kp libs.codec s.world.keys cert predicate f.name content b ∧
        (∀ x ∈ outs.list, OutputHolds libs cert (signCommon libs o trust ident map predicate s).2.disk b x) ∧
        libs.disk.canRead f = true ∧
        ∃ w w' call, callFor (jobEnv libs ctx ⟨some s.world.keys, some cert⟩ predicate) f
            ⟨.sha2_256, libs.env.crypto.sha256 content⟩ = .ok call ∧
          (⟨some s.world.keys, some cert⟩ : Signer).sign libs.env ctx libs.kp (o.perFile f).1 w call = (.ok b, w') := by
  unfold signCommon at h ⊢
  have hd := signPrepare_disk libs o trust ident s
  cases hp : signPrepare libs o trust ident s with
  | mk r s' =>
    rw [hp] at h hd
    cases r with
    | error e => cases h
    | ok cs =>
      obtain ⟨ctx, signer⟩ := cs
      dsimp only at h hd ⊢
      obtain ⟨token, cert, rfl, hi, hid, w₁, hw⟩ := signPrepare_ok hp
      refine ⟨token, cert, ctx, w₁, hid, hi, hw, ?_⟩
      have inv := runJobs_inv (jobEnv libs ctx ⟨some s.world.keys, some cert⟩ predicate) s.world.keys cert rfl s'.disk
        (jobsOf o map) (separate_of_apart hm) o.schedule (jobsStart s') ⟨fun _ _ _ => trivial, fun _ _ => rfl⟩
      have hdone := jobsResult_ok h
      intro f outs hf
      obtain ⟨i, hi⟩ := List.mem_iff_getElem?.1 hf
      have hjob : (jobsOf o map)[i]? = some ⟨f, outs, (o.perFile f).1, (o.perFile f).2⟩ := by
        unfold jobsOf; rw [List.getElem?_map, hi]; rfl
      have hj := inv.each i _ hjob
      rw [hdone i (List.getElem?_eq_some_iff.1 hjob).1] at hj
      obtain ⟨b, ⟨c, hc, hb, hcall⟩, hh⟩ := hj
      refine ⟨c, b, ?_, hb, ?_, hc.1, hcall⟩
      · rw [← hd]; exact hc.2
      · intro x hx
        have := hh x hx
        cases x <;> exact this

/-- successful signing: every entry of the map has a bundle, and its outputs hold it -/
theorem signCommon_outputs (libs : SignLibs) (o : SignOracle) (trust : TrustArgs) (ident : IdentityArgs)
    (map : Dict Path SigningOutputs) (predicate : Option (Str × Dict Str Json)) (s : SignState) (hm : MapApart libs.disk map)
    (h : (signCommon libs o trust ident map predicate s).1 = some (.ok ())) :
    ∃ token cert, (∃ cfg, signIdentity libs.identity o.now ident cfg = .ok token) ∧
      IssuedFor libs.kp (o.first token) s.world.keys cert ∧
      ∀ f outs, (f, outs) ∈ map → ∃ content b, s.disk (libs.disk.resolve f) = some (.file content) ∧
        BundleOf libs.env.crypto libs.kp libs.codec s.world.keys cert predicate f.name content b ∧
        ∀ x ∈ outs.list, OutputHolds libs cert (signCommon libs o trust ident map predicate s).2.disk b x := by
  obtain ⟨token, cert, _, _, h1, h2, _, h3⟩ := signCommon_calls libs o trust ident map predicate s hm h
  refine ⟨token, cert, h1, h2, ?_⟩
  intro f outs hf
  obtain ⟨content, b, g1, g2, g3, _⟩ := h3 f outs hf
  exact ⟨content, b, g1, g2, g3⟩

theorem mapFor_mem {files : List Path} {outs : Path → SigningOutputs} {map : Dict Path SigningOutputs} (h : MapFor files outs map)
    {f : Path} : f ∈ files ↔ (f, outs f) ∈ map := by
  rw [← h.2.1]
  constructor
  · intro hf
    obtain ⟨⟨g, o⟩, hm, rfl⟩ := List.mem_map.1 hf
    rw [← h.2.2 g o hm]; exact hm
  · intro hm; exact List.mem_map.2 ⟨_, hm, rfl⟩

theorem signMap_within {e : DiskEnv} {args : SignArgs} {map : Dict Path SigningOutputs}
    (hm : MapFor args.files (signOutputsFor args) map) (ha : SignOutputsApart e args) (f : Path) (o : SigningOutputs) (h : (f, o) ∈ map) :
    (o.list.map fun x => e.resolve x.path).Nodup := by
  have hf : f ∈ args.files := (hm.2.1 f).1 (List.mem_map.2 ⟨_, h, rfl⟩)
  rw [hm.2.2 f o h]
  have hb := ha.bundled f hf
  have hd := ha.detached
  cases hs : args.signature with
  | none =>
    cases hc : args.certificate with
    | none =>
      cases hbb : signBundlePath args f (args.outputDirectory.getD f.parent) <;>
        simp [signOutputsFor, SigningOutputs.list, hs, hc, hbb]
    | some q =>
      cases hbb : signBundlePath args f (args.outputDirectory.getD f.parent) with
      | none => simp [signOutputsFor, SigningOutputs.list, hs, hc, hbb]
      | some r =>
        have := hb q r (.inr hc) ((signBundlePath_iff args f r).1 hbb)
        simpa [signOutputsFor, SigningOutputs.list, hs, hc, hbb, Output.path] using this
  | some p =>
    cases hc : args.certificate with
    | none =>
      cases hbb : signBundlePath args f (args.outputDirectory.getD f.parent) with
      | none => simp [signOutputsFor, SigningOutputs.list, hs, hc, hbb]
      | some r =>
        have := hb p r (.inl hs) ((signBundlePath_iff args f r).1 hbb)
        simpa [signOutputsFor, SigningOutputs.list, hs, hc, hbb, Output.path] using this
    | some q =>
      have h1 := hd p q hs hc
      cases hbb : signBundlePath args f (args.outputDirectory.getD f.parent) with
      | none => simpa [signOutputsFor, SigningOutputs.list, hs, hc, hbb, Output.path] using h1
      | some r =>
        have h2 := hb p r (.inl hs) ((signBundlePath_iff args f r).1 hbb)
        have h3 := hb q r (.inr hc) ((signBundlePath_iff args f r).1 hbb)
        simpa [signOutputsFor, SigningOutputs.list, hs, hc, hbb, Output.path] using ⟨⟨h1, h2⟩, h3⟩

theorem signMap_across {e : DiskEnv} {args : SignArgs} {map : Dict Path SigningOutputs}
    (hm : MapFor args.files (signOutputsFor args) map) (ha : SignOutputsApart e args) (f : Path) (o : SigningOutputs) (g : Path)
    (o' : SigningOutputs) (h : (f, o) ∈ map) (h' : (g, o') ∈ map) (hfg : f ≠ g) (x : Output) (hx : x ∈ o.list) (y : Output)
    (hy : y ∈ o'.list) : e.resolve x.path ≠ e.resolve y.path := by
  have hf : f ∈ args.files := (hm.2.1 f).1 (List.mem_map.2 ⟨_, h, rfl⟩)
  have hg : g ∈ args.files := (hm.2.1 g).1 (List.mem_map.2 ⟨_, h', rfl⟩)
  rw [hm.2.2 f o h] at hx
  rw [hm.2.2 g o' h'] at hy
  exact ha.files f hf g hg hfg _ _ ((signOutput_iff args f _).1 ⟨x, hx, rfl⟩) ((signOutput_iff args g _).1 ⟨y, hy, rfl⟩)

theorem signMap_apart {e : DiskEnv} {args : SignArgs} {map : Dict Path SigningOutputs}
    (hm : MapFor args.files (signOutputsFor args) map) (ha : SignOutputsApart e args) (hi : SignInputsApart e args) :
    MapApart e map where
  keys := hm.1
  within := signMap_within hm ha
  across := signMap_across hm ha
  inputs f o g o' h h' x hx := by
    have hf : f ∈ args.files := (hm.2.1 f).1 (List.mem_map.2 ⟨_, h, rfl⟩)
    have hg : g ∈ args.files := (hm.2.1 g).1 (List.mem_map.2 ⟨_, h', rfl⟩)
    rw [hm.2.2 f o h] at hx
    exact hi f hf g hg _ ((signOutput_iff args f _).1 ⟨x, hx, rfl⟩)

/-- **C43** For every schedule of the threads: if `sign` succeeds, its outputs lead to different places and none leads to
an input, then every output holds what belongs to its own input: the bundle, signature and certificate made for the
content that input had when the command started, all with one key and a certificate issued for it.  Missing compared with
the property: the condition that no output is an input (see `C43_output_is_input`); without `--overwrite` it holds by
itself (`C43_own_bundle`). -/
theorem C43_own_bundle_overwrite_partial (libs : SignLibs) (o : SignOracle) (trust : TrustArgs) (ident : IdentityArgs)
    (args : SignArgs) (s : SignState) (ha : SignOutputsApart libs.disk args) (hi : SignInputsApart libs.disk args)
    (h : (signMain libs o trust ident args s).1 = some (.ok ())) :
    ∃ token cert, (∃ cfg, signIdentity libs.identity o.now ident cfg = .ok token) ∧
      IssuedFor libs.kp (o.first token) s.world.keys cert ∧
      ∀ f ∈ args.files, ∃ content b, s.disk (libs.disk.resolve f) = some (.file content) ∧
        BundleOf libs.env.crypto libs.kp libs.codec s.world.keys cert none f.name content b ∧
        OutputsHold libs args (signMain libs o trust ident args s).2.disk f cert b := by
  unfold signMain at h ⊢
  have hd := signOutputs_disk libs.disk args s.disk
  cases hm : signOutputs libs.disk args s.disk with
  | mk r d =>
    rw [hm] at h hd
    cases r with
    | error e => cases h
    | ok map =>
      dsimp only at h hd ⊢
      have hmap := signOutputs_map _ _ _ _ _ hm
      obtain ⟨token, cert, h1, h2, h3⟩ := signCommon_outputs libs o trust ident map none { s with disk := d }
        (signMap_apart hmap ha hi) h
      refine ⟨token, cert, h1, h2, ?_⟩
      intro f hf
      obtain ⟨content, b, g1, g2, g3⟩ := h3 f _ ((mapFor_mem hmap).1 hf)
      refine ⟨content, b, hd.file.1 g1, g2, ?_, ?_, ?_⟩
      · intro p hp
        exact g3 (.bundle p) ((mem_outputs _ _).2 (.inr (.inr ⟨p, (signBundlePath_iff args f p).2 hp, rfl⟩)))
      · intro p hp
        exact g3 (.signature p) ((mem_outputs _ _).2 (.inl ⟨p, hp, rfl⟩))
      · intro p hp
        exact g3 (.certificate p) ((mem_outputs _ _).2 (.inr (.inl ⟨p, hp, rfl⟩)))

/-- **C43** Without `--overwrite` it is enough that the outputs lead to different places. -/
theorem C43_own_bundle (libs : SignLibs) (o : SignOracle) (trust : TrustArgs) (ident : IdentityArgs)
    (args : SignArgs) (s : SignState) (ha : SignOutputsApart libs.disk args) (how : args.overwrite = false)
    (h : (signMain libs o trust ident args s).1 = some (.ok ())) :
    ∃ token cert, (∃ cfg, signIdentity libs.identity o.now ident cfg = .ok token) ∧
      IssuedFor libs.kp (o.first token) s.world.keys cert ∧
      ∀ f ∈ args.files, ∃ content b, s.disk (libs.disk.resolve f) = some (.file content) ∧
        BundleOf libs.env.crypto libs.kp libs.codec s.world.keys cert none f.name content b ∧
        OutputsHold libs args (signMain libs o trust ident args s).2.disk f cert b := by
  refine C43_own_bundle_overwrite_partial libs o trust ident args s ha ?_ h
  intro f hf g hg p hp he
  unfold signMain at h
  cases hm : signOutputs libs.disk args s.disk with
  | mk r d =>
    rw [hm] at h
    cases r with
    | error e => cases h
    | ok map =>
      obtain ⟨_, h2, h3, _⟩ := C42_checks_sound _ _ _ _ _ hm
      obtain ⟨c, hc⟩ := h2 g hg
      have := h3 how f hf p hp
      rw [he, hc] at this
      cases this

/-! ## Default outputs -/

theorem proper_ofStr (s : Str) (h : (Path.ofStr s).parts ≠ []) : ProperPath (Path.ofStr s) := by
  refine ⟨h, ?_⟩
  intro x hx
  unfold Path.ofStr pathParts at hx
  obtain ⟨h1, h2⟩ := List.mem_filter.1 hx
  exact ⟨splitSlash_no_slash _ _ h1, (by simpa using h2 : x ≠ [] ∧ x ≠ ['.'])⟩

theorem sibling_parts {p : Path} (hp : ProperPath p) {suffix : Str} (hs : '/' ∉ suffix) (hs2 : 2 ≤ suffix.length) :
    sibling p suffix = ⟨p.absolute, p.parts.dropLast ++ [p.name ++ suffix]⟩ := by
  unfold sibling
  have hn : '/' ∉ p.name := by
    unfold Path.name
    rw [List.getLast?_eq_getLast_of_ne_nil hp.1]
    exact (hp.2 _ (List.getLast_mem hp.1)).1
  rw [Path.join_component _ (by simp [hn, hs]), if_neg]
  · rfl
  · rintro (h | h)
    · have := congrArg List.length h; rw [List.length_append, List.length_nil] at this; omega
    · have := congrArg List.length h; rw [List.length_append, List.length_singleton] at this; omega

/-- **C71** Different files have different default outputs. -/
theorem C71_default_output_injective {p q : Path} (hp : ProperPath p) (hq : ProperPath q)
    (h : p.parent.join (p.name ++ ".sigstore.json".toList) = q.parent.join (q.name ++ ".sigstore.json".toList)) : p = q := by
  have h : sibling p ".sigstore.json".toList = sibling q ".sigstore.json".toList := h
  rw [sibling_parts hp (by decide) (by decide), sibling_parts hq (by decide) (by decide), Path.mk.injEq] at h
  obtain ⟨h1, h2⟩ := h
  obtain ⟨h2, h3⟩ := List.append_inj' h2 rfl
  rw [List.cons.injEq] at h3
  have h3 := List.append_cancel_right h3.1
  have key : ∀ r : Path, r.parts ≠ [] → r.parts = r.parts.dropLast ++ [r.name] := by
    intro r hr
    unfold Path.name
    rw [List.getLast?_eq_getLast_of_ne_nil hr]
    exact (List.dropLast_append_getLast hr).symm
  obtain ⟨pa, pp⟩ := p
  obtain ⟨qa, qp⟩ := q
  have e1 := key _ hp.1
  have e2 := key _ hq.1
  dsimp only at e1 e2 h1 h2 h3
  rw [Path.mk.injEq]
  refine ⟨h1, ?_⟩
  rw [e1, e2, h2, h3]

/-- **C71** Without `--output-directory`, explicit outputs and `--overwrite`: every input has its own bundle next to it,
provided that different default output paths lead to different places.  Missing compared with the property:
`--output-directory` (see `C71_same_names_collide`), links that make two outputs one file, and `--overwrite`. -/
theorem C71_bundle_for_each_partial (libs : SignLibs) (o : SignOracle) (trust : TrustArgs) (ident : IdentityArgs)
    (args : SignArgs) (s : SignState) (hp : ∀ f ∈ args.files, ProperPath f)
    (hres : ∀ f ∈ args.files, ∀ g ∈ args.files,
      libs.disk.resolve (f.parent.join (f.name ++ ".sigstore.json".toList)) =
        libs.disk.resolve (g.parent.join (g.name ++ ".sigstore.json".toList)) →
      f.parent.join (f.name ++ ".sigstore.json".toList) = g.parent.join (g.name ++ ".sigstore.json".toList))
    (h1 : args.signature = none) (h2 : args.certificate = none) (h3 : args.bundle = none) (h4 : args.outputDirectory = none)
    (h5 : args.noDefaultFiles = false) (how : args.overwrite = false)
    (h : (signMain libs o trust ident args s).1 = some (.ok ())) :
    ∃ token cert, IssuedFor libs.kp (o.first token) s.world.keys cert ∧
      ∀ f ∈ args.files, ∃ content b, s.disk (libs.disk.resolve f) = some (.file content) ∧
        BundleOf libs.env.crypto libs.kp libs.codec s.world.keys cert none f.name content b ∧
        HoldsBundle libs.disk libs.toJson (signMain libs o trust ident args s).2.disk b
          (f.parent.join (f.name ++ ".sigstore.json".toList)) := by
  have hout : ∀ f p, SignOutput args f p → p = f.parent.join (f.name ++ ".sigstore.json".toList) := by
    intro f p hp
    cases hp with
    | signature h => rw [h1] at h; cases h
    | certificate h => rw [h2] at h; cases h
    | bundle h => rw [h3] at h; cases h
    | inDirectory _ _ h => rw [h4] at h; cases h
    | beside => rfl
  have ha : SignOutputsApart libs.disk args := by
    refine ⟨?_, ?_, ?_⟩
    · intro f hf g hg hfg p q hp' hq' he
      rw [hout f p hp', hout g q hq'] at he
      exact hfg (C71_default_output_injective (hp f hf) (hp g hg) (hres f hf g hg he))
    · intro p q hp; rw [h1] at hp; cases hp
    · rintro f hf p q (hp | hp)
      · rw [h1] at hp; cases hp
      · rw [h2] at hp; cases hp
  obtain ⟨token, cert, _, g2, g3⟩ := C43_own_bundle libs o trust ident args s ha how h
  refine ⟨token, cert, g2, fun f hf => ?_⟩
  obtain ⟨content, b, k1, k2, k3⟩ := g3 f hf
  exact ⟨content, b, k1, k2, k3.bundle _ (.beside h3 h5 h4)⟩

/-! ## attest -/

theorem attestMap_apart {e : DiskEnv} {args : AttestArgs} {map : Dict Path SigningOutputs}
    (hm : MapFor args.files (fun f => ⟨none, none, some (args.bundle.getD (sibling f ".sigstore.json".toList))⟩) map)
    (ha : ∀ f ∈ args.files, ∀ g ∈ args.files, f ≠ g → ∀ p q, AttestBundlePath args f p → AttestBundlePath args g q →
      e.resolve p ≠ e.resolve q)
    (hi : ∀ f ∈ args.files, ∀ g ∈ args.files, ∀ p, AttestBundlePath args f p → e.resolve p ≠ e.resolve g) : MapApart e map where
  keys := hm.1
  within f o h := by rw [hm.2.2 f o h]; simp [SigningOutputs.list]
  across f o g o' h h' hfg x hx y hy := by
    have hf : f ∈ args.files := (hm.2.1 f).1 (List.mem_map.2 ⟨_, h, rfl⟩)
    have hg : g ∈ args.files := (hm.2.1 g).1 (List.mem_map.2 ⟨_, h', rfl⟩)
    rw [hm.2.2 f o h] at hx
    rw [hm.2.2 g o' h'] at hy
    simp only [SigningOutputs.list, Option.map_none, Option.toList_none, Option.map_some, Option.toList_some,
      List.nil_append, List.mem_singleton] at hx hy
    subst hx hy
    exact ha f hf g hg hfg _ _ ((attestBundlePath_iff args f _).1 rfl) ((attestBundlePath_iff args g _).1 rfl)
  inputs f o g o' h h' x hx := by
    have hf : f ∈ args.files := (hm.2.1 f).1 (List.mem_map.2 ⟨_, h, rfl⟩)
    have hg : g ∈ args.files := (hm.2.1 g).1 (List.mem_map.2 ⟨_, h', rfl⟩)
    rw [hm.2.2 f o h] at hx
    simp only [SigningOutputs.list, Option.map_none, Option.toList_none, Option.map_some, Option.toList_some,
      List.nil_append, List.mem_singleton] at hx
    subst hx
    exact hi f hf g hg _ ((attestBundlePath_iff args f _).1 rfl)

theorem checkPredicate_ok_iff (accepts : Json → Bool) (j : Json) (pred : Dict Str Json) :
    checkPredicate accepts j = .ok pred ↔ j = .obj pred ∧ accepts j = true := by
  cases j with
  | obj members =>
    unfold checkPredicate
    dsimp only
    by_cases h : accepts (.obj members) = true
    · rw [if_pos h]
      constructor
      · intro h'; cases h'; exact ⟨rfl, h⟩
      · rintro ⟨h', -⟩; cases h'; rfl
    · rw [if_neg h]
      exact ⟨fun h' => (by cases h'), fun h' => absurd h'.2 h⟩
  | _ => exact ⟨fun h => (by cases h), fun h => (by cases h.1)⟩

/-- when the predicate can be used -/
theorem readPredicate_ok_iff (e : DiskEnv) (loads : Str → Option Json) (args : AttestArgs) (d : Disk) (pred : Dict Str Json) :
    readPredicate e loads args d = .ok pred ↔ ∃ content text, d (e.resolve args.predicate) = some (.file content) ∧
      e.canRead args.predicate = true ∧ utf8Decode content = some text ∧ loads text = some (.obj pred) ∧
      ((args.predicateType = slsaV02 ∧ Slsa.predicateV0_2 (.obj pred) = true) ∨
        (args.predicateType = slsaV10 ∧ Slsa.predicateV1_0 (.obj pred) = true)) := by
  unfold readPredicate
  cases hf : e.isFile d args.predicate with
  | false =>
    refine ⟨fun h => (by cases h), ?_⟩
    rintro ⟨content, _, h, _⟩
    rw [(isFile_iff _ _ _).2 ⟨content, h⟩] at hf
    cases hf
  | true =>
    obtain ⟨content, hc⟩ := (isFile_iff _ _ _).1 hf
    have hread : readText (e.fs d) args.predicate =
        if e.canRead args.predicate then
          (match utf8Decode content with
          | none => .error .unicodeDecode
          | some s => .ok s)
        else .error .osError := by
      unfold readText DiskEnv.fs DiskEnv.read
      dsimp only
      rw [hc]
      dsimp only
      cases e.canRead args.predicate <;> rfl
    rw [if_neg (by simp), hread]
    cases hcr : e.canRead args.predicate with
    | false =>
      refine ⟨fun h => (by cases h), ?_⟩
      rintro ⟨_, _, _, h, _⟩
      cases h
    | true =>
      rw [if_pos rfl]
      cases hu : utf8Decode content with
      | none =>
        refine ⟨fun h => (by cases h), ?_⟩
        rintro ⟨content', _, h, _, h2, _⟩
        rw [hc] at h; cases h
        rw [hu] at h2; cases h2
      | some text =>
        dsimp only
        have hin : (∃ content' text', d (e.resolve args.predicate) = some (.file content') ∧
            true = true ∧ utf8Decode content' = some text' ∧ loads text' = some (.obj pred) ∧
            ((args.predicateType = slsaV02 ∧ Slsa.predicateV0_2 (.obj pred) = true) ∨
              (args.predicateType = slsaV10 ∧ Slsa.predicateV1_0 (.obj pred) = true))) ↔
            loads text = some (.obj pred) ∧
            ((args.predicateType = slsaV02 ∧ Slsa.predicateV0_2 (.obj pred) = true) ∨
              (args.predicateType = slsaV10 ∧ Slsa.predicateV1_0 (.obj pred) = true)) := by
          constructor
          · rintro ⟨content', text', h, _, h2, h3⟩
            rw [hc] at h; cases h
            rw [hu] at h2; cases h2
            exact h3
          · intro h
            exact ⟨content, text, hc, rfl, hu, h⟩
        rw [hin]
        cases hl : loads text with
        | none => exact ⟨fun h => (by cases h), fun h => (by cases h.1)⟩
        | some j =>
          dsimp only
          have hne : slsaV02 ≠ slsaV10 := by decide
          by_cases h1 : args.predicateType = slsaV02
          · rw [if_pos h1, checkPredicate_ok_iff]
            constructor
            · rintro ⟨rfl, h⟩; exact ⟨rfl, .inl ⟨h1, h⟩⟩
            · rintro ⟨h, ⟨_, h'⟩ | ⟨h', _⟩⟩
              · cases h; exact ⟨rfl, h'⟩
              · exact absurd (h1.symm.trans h') hne
          · rw [if_neg h1]
            by_cases h2 : args.predicateType = slsaV10
            · rw [if_pos h2, checkPredicate_ok_iff]
              constructor
              · rintro ⟨rfl, h⟩; exact ⟨rfl, .inr ⟨h2, h⟩⟩
              · rintro ⟨h, ⟨h', _⟩ | ⟨_, h'⟩⟩
                · exact absurd h' h1
                · cases h; exact ⟨rfl, h'⟩
            · rw [if_neg h2]
              refine ⟨fun h => (by cases h), ?_⟩
              rintro ⟨_, ⟨h', _⟩ | ⟨h', _⟩⟩
              · exact absurd h' h1
              · exact absurd h' h2

/-- **C46** For every schedule: if `attest` succeeds, the bundles of different inputs lead to different places and none
leads to an input, then the output of each input holds an attestation about that input: a signed statement with its name,
the digest of its content, and the predicate.  Missing compared with the property: the two conditions; the first fails for
`--bundle` with several inputs (`C46_shared_bundle`). -/
theorem C46_own_attestation_partial (libs : SignLibs) (o : SignOracle) (trust : TrustArgs) (ident : IdentityArgs)
    (args : AttestArgs) (s : SignState)
    (ha : ∀ f ∈ args.files, ∀ g ∈ args.files, f ≠ g → ∀ p q, AttestBundlePath args f p → AttestBundlePath args g q →
      libs.disk.resolve p ≠ libs.disk.resolve q)
    (hi : args.overwrite = false ∨
      ∀ f ∈ args.files, ∀ g ∈ args.files, ∀ p, AttestBundlePath args f p → libs.disk.resolve p ≠ libs.disk.resolve g)
    (h : (attestMain libs o trust ident args s).1 = some (.ok ())) :
    ∃ token cert pred predicate, (∃ cfg, signIdentity libs.identity o.now ident cfg = .ok token) ∧
      IssuedFor libs.kp (o.first token) s.world.keys cert ∧
      s.disk (libs.disk.resolve args.predicate) = some (.file predicate) ∧
      (∃ text, utf8Decode predicate = some text ∧ libs.loads text = some (.obj pred)) ∧
      ∀ f ∈ args.files, ∃ content b p, s.disk (libs.disk.resolve f) = some (.file content) ∧
        BundleOf libs.env.crypto libs.kp libs.codec s.world.keys cert (some (args.predicateType, pred)) f.name content b ∧
        AttestBundlePath args f p ∧ HoldsBundle libs.disk libs.toJson (attestMain libs o trust ident args s).2.disk b p := by
  unfold attestMain at h ⊢
  cases hr : readPredicate libs.disk libs.loads args s.disk with
  | error e => rw [hr] at h; cases h
  | ok pred =>
    rw [hr] at h
    dsimp only at h ⊢
    cases hl : attestOutputsLoop libs.disk args s.disk [] args.files with
    | error e => rw [hl] at h; cases h
    | ok map =>
      rw [hl] at h
      dsimp only at h ⊢
      obtain ⟨hmap, hfile, habs⟩ := attestOutputsLoop_ok _ _ _ _ [] _ _ hl (mapFor_nil _)
      rw [List.nil_append] at hmap
      have hi' : ∀ f ∈ args.files, ∀ g ∈ args.files, ∀ p, AttestBundlePath args f p →
          libs.disk.resolve p ≠ libs.disk.resolve g := by
        rcases hi with ho | hi
        · intro f hf g hg p hp he
          obtain ⟨c, hc⟩ := (isFile_iff _ _ _).1 (hfile g hg)
          have := habs ho f hf
          rw [(attestBundlePath_iff args f p).2 hp, he, hc] at this
          cases this
        · exact hi
      obtain ⟨token, cert, h1, h2, h3⟩ := signCommon_outputs libs o trust ident map (some (args.predicateType, pred)) s
        (attestMap_apart hmap ha hi') h
      obtain ⟨predicate, text, p1, _, p2, p3, _⟩ := (readPredicate_ok_iff _ _ _ _ _).1 hr
      refine ⟨token, cert, pred, predicate, h1, h2, p1, ⟨text, p2, p3⟩, ?_⟩
      intro f hf
      obtain ⟨content, b, g1, g2, g3⟩ := h3 f _ ((mapFor_mem hmap).1 hf)
      exact ⟨content, b, _, g1, g2, (attestBundlePath_iff args f _).1 rfl,
        g3 (.bundle _) ((mem_outputs _ _).2 (.inr (.inr ⟨_, rfl, rfl⟩)))⟩

/-! ## Identity -/

theorem interactive_iff (libs : IdentityLibs) (now : Time) (args : IdentityArgs) (cfg : LoadedConfig) (t : Oidc.IdentityToken)
    (h : NoAmbientToken libs args) : getIdentity libs now args cfg = .ok t ↔
      ∃ url, FlowIssuer now args cfg url ∧ libs.issuer url = .ok () ∧
        libs.interactive url args.clientId (args.clientSecret.getD []) args.forceOob = .ok t := by
  have hflow : ∀ url, (match libs.issuer url with
      | .error e => (.error e : Py Oidc.IdentityToken)
      | .ok () => libs.interactive url args.clientId (args.clientSecret.getD []) args.forceOob) = .ok t ↔
      libs.issuer url = .ok () ∧ libs.interactive url args.clientId (args.clientSecret.getD []) args.forceOob = .ok t := by
    intro url
    cases libs.issuer url <;> simp
  have hrest : (match args.issuer with
      | some url => (match libs.issuer url with
        | .error e => (.error e : Py Oidc.IdentityToken)
        | .ok () => libs.interactive url args.clientId (args.clientSecret.getD []) args.forceOob)
      | none =>
        match Config.SigningConfig.init now cfg.signingConfig cfg.forceTlogVersion with
        | .error e => .error e
        | .ok sc =>
          match sc.getOidcUrl with
          | .error e => .error e
          | .ok url => (match libs.issuer url with
            | .error e => (.error e : Py Oidc.IdentityToken)
            | .ok () => libs.interactive url args.clientId (args.clientSecret.getD []) args.forceOob)) = .ok t ↔
      ∃ url, FlowIssuer now args cfg url ∧ libs.issuer url = .ok () ∧
        libs.interactive url args.clientId (args.clientSecret.getD []) args.forceOob = .ok t := by
    cases hi : args.issuer with
    | some url =>
      dsimp only
      rw [hflow]
      constructor
      · intro h; exact ⟨url, .option hi, h⟩
      · rintro ⟨url', h1 | ⟨h1, _, _⟩, h2⟩
        · rw [hi] at h1; cases h1; exact h2
        · rw [hi] at h1; cases h1
    | none =>
      dsimp only
      cases hc : Config.SigningConfig.init now cfg.signingConfig cfg.forceTlogVersion with
      | error e =>
        dsimp only
        constructor
        · intro h; cases h
        · rintro ⟨url', h1 | ⟨_, h1, _⟩, h2⟩
          · rw [hi] at h1; cases h1
          · rw [hc] at h1; cases h1
      | ok sc =>
        dsimp only
        unfold Config.SigningConfig.getOidcUrl
        cases ho : sc.oidcs with
        | nil =>
          dsimp only
          constructor
          · intro h; cases h
          · rintro ⟨url', h1 | ⟨_, h1, h3⟩, h2⟩
            · rw [hi] at h1; cases h1
            · rw [hc] at h1; cases h1; rw [ho] at h3; cases h3
        | cons sv rest =>
          dsimp only
          rw [hflow]
          constructor
          · intro h; exact ⟨_, .config hi hc ho, h⟩
          · rintro ⟨url', h1 | ⟨_, h1, h3⟩, h2⟩
            · rw [hi] at h1; cases h1
            · rw [hc] at h1; cases h1; rw [ho] at h3; cases h3; exact h2
  unfold getIdentity
  rcases h with h | h | h
  · rw [h]; exact hrest
  · rw [h]
    cases args.disableAmbient <;> exact hrest
  · rw [h]
    cases args.disableAmbient <;> exact hrest

/-- **C72** The identity comes from the command line, else from the environment (unless disabled), else from the OAuth
flow with the issuer on the command line or the one of the instance. -/
theorem C72_identity_iff (libs : IdentityLibs) (now : Time) (args : IdentityArgs) (cfg : LoadedConfig) (t : Oidc.IdentityToken) :
    signIdentity libs now args cfg = .ok t ↔ IdentityFrom libs now args cfg t := by
  cases hx : args.identityToken.getD [] with
  | cons c cs =>
    have he : args.identityToken = some (c :: cs) := by
      cases h : args.identityToken with
      | none => rw [h] at hx; cases hx
      | some x => rw [h] at hx; exact congrArg some hx
    unfold signIdentity
    rw [he]
    dsimp only
    constructor
    · intro h; exact .explicit he (by simp) h
    · intro h
      cases h with
      | explicit h1 _ h3 => rw [he] at h1; cases h1; exact h3
      | ambient h1 => have := h1 _ he; cases this
      | interactive h1 => have := h1 _ he; cases this
  | nil =>
    have hno : NoExplicitToken args := by
      intro tok h; rw [h] at hx; exact hx
    have hs : signIdentity libs now args cfg = getIdentity libs now args cfg := by
      unfold signIdentity
      cases h : args.identityToken with
      | none => rfl
      | some x => rw [h] at hx; cases hx; rfl
    rw [hs]
    have hne : ∀ tok, args.identityToken = some tok → tok ≠ [] → False := fun tok h h' => h' (hno tok h)
    by_cases hamb : NoAmbientToken libs args
    · rw [interactive_iff _ _ _ _ _ hamb]
      constructor
      · rintro ⟨url, h1, h2, h3⟩; exact .interactive hno hamb h1 h2 h3
      · intro h
        cases h with
        | explicit h1 h2 => exact (hne _ h1 h2).elim
        | ambient _ h2 h3 h4 =>
          rcases hamb with h | h | h
          · rw [h2] at h; cases h
          · rw [h3] at h; cases h
          · rw [h3] at h; cases h; exact absurd rfl h4
        | interactive _ _ h1 h2 h3 => exact ⟨_, h1, h2, h3⟩
    · have hd : args.disableAmbient = false := by
        cases h : args.disableAmbient with
        | false => rfl
        | true => exact absurd (.inl h) hamb
      cases hdet : libs.detect args.clientId with
      | error e =>
        unfold getIdentity
        rw [hd, hdet]
        constructor
        · intro h; cases h
        · intro h
          cases h with
          | explicit h1 h2 => exact (hne _ h1 h2).elim
          | ambient _ _ h3 => rw [hdet] at h3; cases h3
          | interactive _ h => exact absurd h hamb
      | ok r =>
        cases r with
        | none => exact absurd (.inr (.inl hdet)) hamb
        | some tok =>
          cases tok with
          | nil => exact absurd (.inr (.inr hdet)) hamb
          | cons c cs =>
            unfold getIdentity
            rw [hd, hdet]
            constructor
            · intro h; exact .ambient hno hd hdet (by simp) h
            · intro h
              cases h with
              | explicit h1 h2 => exact (hne _ h1 h2).elim
              | ambient _ _ h3 _ h4 => rw [hdet] at h3; cases h3; exact h4
              | interactive _ h => exact absurd h hamb

/-- **C72** With a token on the command line nothing else is consulted, whatever it would answer; and a failure to look in
the environment is reported, not papered over with another identity. -/
theorem C72_no_fallback (libs libs' : IdentityLibs) (now now' : Time) (args : IdentityArgs) (cfg cfg' : LoadedConfig) :
    (∀ tok, args.identityToken = some tok → tok ≠ [] → libs.token = libs'.token →
      signIdentity libs now args cfg = signIdentity libs' now' args cfg') ∧
    (∀ e, NoExplicitToken args → args.disableAmbient = false → libs.detect args.clientId = .error e →
      signIdentity libs now args cfg = .error e) := by
  constructor
  · intro tok h1 h2 h3
    unfold signIdentity
    rw [h1]
    cases tok with
    | nil => exact absurd rfl h2
    | cons c cs => dsimp only; rw [h3]
  · intro e h1 h2 h3
    have hs : signIdentity libs now args cfg = getIdentity libs now args cfg := by
      unfold signIdentity
      cases h : args.identityToken with
      | none => rfl
      | some x => rw [h1 x h]
    rw [hs]
    unfold getIdentity
    rw [h2, h3]
    rfl

end Sigstore.Props
