import Verif.Spec.Update
import Verif.Props.Tuf
import Verif.Props.CliVerify

/-!
# C114: offline runs use what the last online run of the instance obtained
-/

namespace Sigstore.Props

open Sigstore.Spec Sigstore.Tuf Sigstore.Cli

/-! ## What an online run writes -/

theorem joinArtifact_inj {d d' : Path} {n n' : Str} (hn : n = trustedRootName ∨ n = signingConfigName)
    (hn' : n' = trustedRootName ∨ n' = signingConfigName) (h : d.join n = d'.join n') : d = d' ∧ n = n' := by
  have key : ∀ (x : Path) (m : Str), m = trustedRootName ∨ m = signingConfigName → x.join m = ⟨x.absolute, x.parts ++ [m]⟩ := by
    rintro x m (rfl | rfl)
    · rw [x.join_component (by decide), if_neg (by decide)]
    · rw [x.join_component (by decide), if_neg (by decide)]
  rw [key d n hn, key d' n' hn'] at h
  obtain ⟨h1, h2⟩ := Path.mk.inj h
  obtain ⟨h3, h4⟩ := List.append_inj' h2 rfl
  refine ⟨?_, List.singleton_inj.1 h4⟩
  cases d; cases d'; cases h1; cases h3; rfl

theorem instanceDir_ne {env env' : Tuf.Env} {url url' : Str} (hb : env'.cacheBase = env.cacheBase) (hp : ProperUrl url)
    (h : stripSlashes url' ≠ stripSlashes url) : instanceDir env' url' ≠ instanceDir env url := by
  intro he
  unfold instanceDir at he
  rw [getDirs_eq, getDirs_eq] at he
  dsimp only at he
  rw [hb, join_quote_eq_iff] at he
  rcases he with he | ⟨_, he⟩ | ⟨_, he⟩
  · exact h he
  · exact hp.2.1 he
  · exact hp.1 he

/-- looking for a target changes files only by storing the target -/
theorem targetPath_files {env : Tuf.Env} {u : TrustUpdater} {dir : Path} (hs : StoresIn env.library dir) {name : Str}
    (hn : name = trustedRootName ∨ name = signingConfigName) (w : Tuf.World) (q : Path) (hq : q ≠ dir.join name) :
    (u.targetPath env name w).2.files q = w.files q := by
  unfold TrustUpdater.targetPath
  split
  · rfl
  · dsimp only
    cases h1 : env.library.targetInfo name with
    | error e => rfl
    | ok o =>
      cases o with
      | none => rfl
      | some info =>
        dsimp only
        split
        · rfl
        · rfl
        · cases h3 : env.library.download info with
          | error e => cases e <;> rfl
          | ok r =>
            obtain ⟨p, b⟩ := r
            dsimp only [World.write, World.call]
            rw [if_neg]
            rw [hs.downloaded name info p b hn h1 h3]
            exact hq

theorem targetPath_place {env : Tuf.Env} {u : TrustUpdater} {dir : Path} (hs : StoresIn env.library dir) (hu : u.online = true)
    {name : Str} (hn : name = trustedRootName ∨ name = signingConfigName) {w w' : Tuf.World} {p : Path}
    (h : u.targetPath env name w = (.ok p, w')) : p = dir.join name := by
  unfold TrustUpdater.targetPath at h
  rw [hu] at h
  rw [if_neg (by decide)] at h
  dsimp only at h
  cases h1 : env.library.targetInfo name with
  | error e => rw [h1] at h; cases h
  | ok o =>
    rw [h1] at h
    cases o with
    | none => cases h
    | some info =>
      dsimp only at h
      split at h
      · cases h
      · rename_i path hf
        cases h
        exact hs.cached _ _ _ _ hn h1 hf
      · cases h3 : env.library.download info with
        | error e => rw [h3] at h; cases e <;> cases h
        | ok r =>
          rw [h3] at h
          obtain ⟨p', b⟩ := r
          cases h
          exact hs.downloaded _ _ _ _ hn h1 h3

/-- the shape of an online run, after the initialisation -/
theorem fromTuf_online_files {env : Tuf.Env} {url : Str} {boot : Option (Py Bytes)} {w : Tuf.World} {dir : Path}
    (hs : StoresIn env.library dir) (q : Path) (hq : ∀ n, n = trustedRootName ∨ n = signingConfigName → q ≠ dir.join n) :
    (fromTuf env url false boot w).2.files q = (filled env url w).files q := by
  unfold fromTuf
  rw [init_online]
  cases bootstrapOf env url boot with
  | error e => rfl
  | ok root =>
    dsimp only
    by_cases hr : env.library.refresh root = true
    · rw [if_pos hr]
      dsimp only [TrustUpdater.getTrustedRootPath, TrustUpdater.getSigningConfigPath]
      have hk : ∀ (u : TrustUpdater) (name : Str) (w : Tuf.World), name = trustedRootName ∨ name = signingConfigName →
          (u.targetPath env name w).2.files q = w.files q := fun u name w hn => targetPath_files hs hn w q (hq name hn)
      generalize hu : (⟨stripSlashes url, (getDirs env.dataBase env.cacheBase (stripSlashes url)).1,
        (getDirs env.dataBase env.cacheBase (stripSlashes url)).2, true, none, none⟩ : TrustUpdater) = u
      have h1 := hk u trustedRootName ((filled env url w).call (.refresh (stripSlashes url) root)) (.inl rfl)
      cases ht : u.targetPath env trustedRootName ((filled env url w).call (.refresh (stripSlashes url) root)) with
      | mk r w1 =>
        rw [ht] at h1
        have h1' : w1.files q = (filled env url w).files q := h1
        cases r with
        | error e => exact h1'
        | ok p =>
          dsimp only
          subst hu
          cases readBytes w1 p with
          | error e => exact h1'
          | ok tr =>
            dsimp only
            have h2 := hk ⟨stripSlashes url, (getDirs env.dataBase env.cacheBase (stripSlashes url)).1,
              (getDirs env.dataBase env.cacheBase (stripSlashes url)).2, true, some p, none⟩ signingConfigName w1 (.inr rfl)
            cases hsc : TrustUpdater.targetPath env ⟨stripSlashes url, (getDirs env.dataBase env.cacheBase (stripSlashes url)).1,
                (getDirs env.dataBase env.cacheBase (stripSlashes url)).2, true, some p, none⟩ signingConfigName w1 with
            | mk r2 w2 =>
              rw [hsc] at h2
              have h2' := h2.trans h1'
              cases r2 with
              | error e => exact h2'
              | ok p2 =>
                dsimp only
                cases readBytes w2 p2 with
                | error e => exact h2'
                | ok sc => exact h2'
    · rw [if_neg hr]
      rfl

/-- what an online run returns lies in the cache afterwards -/
theorem fromTuf_online_cached {env : Tuf.Env} {url : Str} {boot : Option (Py Bytes)} {w w' : Tuf.World} {dir : Path} {tr sc : Bytes}
    (hs : StoresIn env.library dir) (h : fromTuf env url false boot w = (.ok (tr, sc), w')) :
    w'.files (dir.join trustedRootName) = some tr ∧ w'.files (dir.join signingConfigName) = some sc := by
  unfold fromTuf at h
  rw [init_online] at h
  cases hb : bootstrapOf env url boot with
  | error e => rw [hb] at h; cases h
  | ok root =>
    rw [hb] at h
    dsimp only at h
    by_cases hr : env.library.refresh root = true
    · rw [if_pos hr] at h
      dsimp only [TrustUpdater.getTrustedRootPath, TrustUpdater.getSigningConfigPath] at h
      cases ht : TrustUpdater.targetPath env ⟨stripSlashes url, (getDirs env.dataBase env.cacheBase (stripSlashes url)).1,
          (getDirs env.dataBase env.cacheBase (stripSlashes url)).2, true, none, none⟩ trustedRootName
          ((filled env url w).call (.refresh (stripSlashes url) root)) with
      | mk r w1 =>
        rw [ht] at h
        cases r with
        | error e => cases h
        | ok p =>
          dsimp only at h
          have hp := targetPath_place hs rfl (.inl rfl) ht
          cases hr1 : readBytes w1 p with
          | error e => rw [hr1] at h; cases h
          | ok tr' =>
            rw [hr1] at h
            dsimp only at h
            have h2 := targetPath_files (u := ⟨stripSlashes url, (getDirs env.dataBase env.cacheBase (stripSlashes url)).1,
              (getDirs env.dataBase env.cacheBase (stripSlashes url)).2, true, some p, none⟩) hs (.inr rfl) w1
              (dir.join trustedRootName) (artifact_names_differ dir)
            cases hsc : TrustUpdater.targetPath env ⟨stripSlashes url, (getDirs env.dataBase env.cacheBase (stripSlashes url)).1,
                (getDirs env.dataBase env.cacheBase (stripSlashes url)).2, true, some p, none⟩ signingConfigName w1 with
            | mk r2 w2 =>
              rw [hsc] at h h2
              cases r2 with
              | error e => cases h
              | ok p2 =>
                dsimp only at h h2
                have hp2 := targetPath_place hs rfl (.inr rfl) hsc
                cases hr2 : readBytes w2 p2 with
                | error e => rw [hr2] at h; cases h
                | ok sc' =>
                  rw [hr2] at h
                  cases h
                  have hread : ∀ (v : Tuf.World) (x : Path) (b : Bytes), readBytes v x = .ok b → v.files x = some b := by
                    intro v x b hx
                    unfold readBytes at hx
                    split at hx
                    · rename_i b' hb'; cases hx; exact hb'
                    · cases hx
                  constructor
                  · rw [h2, ← hp]; exact hread _ _ _ hr1
                  · rw [← hp2]; exact hread _ _ _ hr2
    · rw [if_neg hr] at h
      cases h

theorem filled_keeps (env : Tuf.Env) (url : Str) (w : Tuf.World) (p : Path) (b : Bytes) (h : w.files p = some b) :
    (filled env url w).files p = some b := by
  simp only [filled, List.foldl_cons, List.foldl_nil, populate_files]
  rw [h]
  split <;> split <;> rfl

/-- an offline run only fills the cache -/
theorem fromTuf_offline_world (env : Tuf.Env) (url : Str) (boot : Option (Py Bytes)) (w : Tuf.World) :
    (fromTuf env url true boot w).2 = filled env url w := by
  have hi : TrustUpdater.init env url true boot w =
      (.ok ⟨stripSlashes url, (getDirs env.dataBase env.cacheBase (stripSlashes url)).1,
        (getDirs env.dataBase env.cacheBase (stripSlashes url)).2, false, none, none⟩, filled env url w) := by
    unfold TrustUpdater.init
    dsimp only
    rw [if_pos rfl]
    rfl
  unfold fromTuf
  rw [hi]
  dsimp only [TrustUpdater.getTrustedRootPath, TrustUpdater.getSigningConfigPath, TrustUpdater.targetPath]
  simp only [Bool.not_false, if_true]
  split
  · rfl
  · split <;> rfl

theorem leaves_keeps {env : Tuf.Env} {url : Str} {r : TrustRun} (hp : ProperUrl url) (hl : Leaves env url r) (w : Tuf.World) {name : Str}
    (hn : name = trustedRootName ∨ name = signingConfigName) {b : Bytes} (h : w.files ((instanceDir env url).join name) = some b) :
    (fromTuf r.env r.url r.offline r.boot w).2.files ((instanceDir env url).join name) = some b := by
  obtain ⟨hb, hl⟩ := hl
  cases ho : r.offline with
  | true =>
    rw [fromTuf_offline_world]
    exact filled_keeps _ _ _ _ _ h
  | false =>
    rcases hl with hl | ⟨hne, hs⟩
    · rw [ho] at hl; cases hl
    · rw [fromTuf_online_files hs]
      · exact filled_keeps _ _ _ _ _ h
      · intro n hn' he
        exact instanceDir_ne hb hp hne (joinArtifact_inj hn hn' he).1.symm

theorem afterRuns_keeps {env : Tuf.Env} {url : Str} (hp : ProperUrl url) {name : Str}
    (hn : name = trustedRootName ∨ name = signingConfigName) {b : Bytes} : ∀ (runs : List TrustRun) (w : Tuf.World),
    (∀ r ∈ runs, Leaves env url r) → w.files ((instanceDir env url).join name) = some b →
    (afterRuns runs w).files ((instanceDir env url).join name) = some b
  | [], w, _, h => h
  | r :: rs, w, hl, h => by
    unfold afterRuns
    rw [List.foldl_cons]
    exact afterRuns_keeps hp hn rs _ (fun r' h' => hl r' (List.mem_cons_of_mem _ h')) (leaves_keeps hp (hl r List.mem_cons_self) w hn h)

/-- **C114** After an online run for an instance has obtained trust material, and whatever other runs follow (any number, offline
ones for any instance, online ones for other instances, successful or not), an offline run for the instance returns the same
material, however its URL is written as to trailing slashes. -/
theorem C114_offline_follows (env env' : Tuf.Env) (url url' : Str) (boot boot' : Option (Py Bytes)) (w w' : Tuf.World) (tr sc : Bytes)
    (runs : List TrustRun) (hp : ProperUrl url) (hs : StoresIn env.library (instanceDir env url))
    (h : fromTuf env url false boot w = (.ok (tr, sc), w')) (hl : ∀ r ∈ runs, Leaves env url r)
    (hu : stripSlashes url' = stripSlashes url) (hb : env'.cacheBase = env.cacheBase) :
    (fromTuf env' url' true boot' (afterRuns runs w')).1 = .ok (tr, sc) := by
  obtain ⟨h1, h2⟩ := fromTuf_online_cached hs h
  refine ((C48_offline env' url' boot' _).2.1 tr sc).2 ?_
  have key : ∀ (name : Str) (b : Bytes), name = trustedRootName ∨ name = signingConfigName →
      w'.files ((instanceDir env url).join name) = some b →
      cachedOrEmbedded env' (stripSlashes url') (afterRuns runs w') name = some b := by
    intro name b hn hf
    have hk := afterRuns_keeps hp hn runs w' hl hf
    have hd : (getDirs env'.dataBase env'.cacheBase (stripSlashes url')).2 = instanceDir env url := by
      unfold instanceDir
      rw [getDirs_eq, getDirs_eq, hu, hb]
    unfold cachedOrEmbedded
    rw [hd, hk]
    rfl
  exact ⟨key _ _ (.inl rfl) h1, key _ _ (.inr rfl) h2⟩

/-- **C114** The same for the commands: what a command loads online, a later command with `--offline` (and otherwise the same
choice of the instance) loads again. -/
theorem C114_commands (fs fs' : Fs) (env env' : Tuf.Env) (parsers : TrustParsers) (args : TrustArgs) (w w' : Tuf.World) (c : LoadedConfig)
    (url : Str) (runs : List TrustRun) (hc : Chosen args (.tuf url)) (ho : args.offline = false) (hp : ProperUrl url)
    (hs : StoresIn env.library (instanceDir env url)) (h : getTrustConfig fs env parsers args w = (.ok c, w'))
    (hl : ∀ r ∈ runs, Leaves env url r) (hb : env'.cacheBase = env.cacheBase) :
    (getTrustConfig fs' env' parsers { args with offline := true } (afterRuns runs w')).1 = .ok c := by
  obtain ⟨h0, h | h⟩ := (C58_config_iff fs env parsers args w w' c).1 h
  · obtain ⟨p, _, _, hq, _⟩ := h
    obtain ⟨s, _, hun⟩ := C58_one_source args
    have := (hun _ hq).trans (hun _ hc).symm
    cases this
  · obtain ⟨url', tr, sc, hq, hf, h1, h2⟩ := h
    obtain ⟨s, _, hun⟩ := C58_one_source args
    have he := (hun _ hq).trans (hun _ hc).symm
    cases he
    rw [ho] at hf
    have ht := C114_offline_follows env env' url url none none w w' tr sc runs hp hs hf hl rfl hb
    have hq' : Chosen { args with offline := true } (.tuf url) := by
      have he : trustSource { args with offline := true } = trustSource args := rfl
      exact (trustSource_iff _ _).1 (he.trans ((trustSource_iff _ _).2 hc))
    cases hx : fromTuf env' url true none (afterRuns runs w') with
    | mk r w2 =>
      rw [hx] at ht
      dsimp only at ht
      rw [ht] at hx
      have := (C58_config_iff fs' env' parsers { args with offline := true } (afterRuns runs w') w2 c).2
        ⟨h0, .inr ⟨url, tr, sc, hq', hx, h1, h2⟩⟩
      rw [this]

/-- **C114** The limit: after an online run that fails, the files need not belong together.  If the trusted root can be downloaded and there is no signing configuration, then the
run fails but has replaced the trusted root, and offline runs pair it with the signing configuration of an earlier run. -/
theorem C114_torn (env : Tuf.Env) (url : Str) (boot : Option (Py Bytes)) (w : Tuf.World) (root : Option Bytes) (info : TargetInfo)
    (new old : Bytes) (hb : bootstrapOf env url boot = .ok root) (hr : env.library.refresh root = true)
    (hi : env.library.targetInfo "trusted_root.json".toList = .ok (some info))
    (hf : ∀ files, env.library.findCached files info = .ok none)
    (hd : env.library.download info = .ok ((instanceDir env url).join "trusted_root.json".toList, new))
    (hn : env.library.targetInfo "signing_config.v0.2.json".toList = .ok none)
    (ho : w.files ((instanceDir env url).join "signing_config.v0.2.json".toList) = some old) :
    (fromTuf env url false boot w).1 = .error .tuf ∧
    (fromTuf env url true boot (fromTuf env url false boot w).2).1 = .ok (new, old) := by
  rw [show "trusted_root.json".toList = trustedRootName from rfl] at hi hd
  rw [show "signing_config.v0.2.json".toList = signingConfigName from rfl] at hn ho
  have key : ∃ v : Tuf.World, fromTuf env url false boot w = (.error .tuf, v) ∧
      v.files = (((filled env url w).write ((instanceDir env url).join trustedRootName) new).files) := by
    unfold fromTuf
    rw [init_online, hb]
    dsimp only
    rw [if_pos hr]
    dsimp only [TrustUpdater.getTrustedRootPath, TrustUpdater.getSigningConfigPath, TrustUpdater.targetPath]
    simp only [Bool.not_true, Bool.false_eq_true, if_false]
    rw [hi]
    dsimp only
    rw [hf, hd]
    dsimp only
    have : ∀ v : Tuf.World, readBytes (v.write ((instanceDir env url).join trustedRootName) new)
        ((instanceDir env url).join trustedRootName) = .ok new := by
      intro v
      unfold readBytes World.write
      dsimp only
      rw [if_pos rfl]
    rw [this]
    dsimp only
    rw [hn]
    exact ⟨_, rfl, rfl⟩
  obtain ⟨v, hv, hvf⟩ := key
  rw [hv]
  refine ⟨rfl, ((C48_offline env url boot v).2.1 new old).2 ?_⟩
  unfold cachedOrEmbedded
  rw [hvf]
  constructor
  · unfold World.write
    change Option.or (if instanceDir env url |>.join trustedRootName |> (· = (instanceDir env url).join trustedRootName) then some new else _) _ = _
    rw [if_pos rfl]
    rfl
  · unfold World.write
    change Option.or (if (instanceDir env url).join signingConfigName = (instanceDir env url).join trustedRootName then _ else
      (filled env url w).files ((instanceDir env url).join signingConfigName)) _ = _
    rw [if_neg (fun h => artifact_names_differ _ h.symm), filled_keeps _ _ _ _ _ ho]
    rfl

/-! ### Examples -/

/-- a library that stores its targets where the real one does -/
def exUpdLibrary (dir : Path) : Library where
  refresh root := root == some [7]
  targetInfo name := .ok (if name = trustedRootName then some ⟨0⟩ else if name = signingConfigName then some ⟨1⟩ else none)
  findCached _ _ := .ok none
  download i := .ok (dir.join (if i.id = 0 then trustedRootName else signingConfigName), [UInt8.ofNat i.id])

def exUpdEnv (url : Str) : Tuf.Env := exTufEnv (exUpdLibrary (instanceDir (exTufEnv exTufLibrary) url))

theorem exUpd_stores (dir : Path) : StoresIn (exUpdLibrary dir) dir where
  cached := by intro n i f p _ _ h; cases h
  downloaded := by
    rintro n i p b (rfl | rfl) hi h
    · cases hi; cases h; rfl
    · cases hi; cases h; rfl

/-- an update, then a failing run for another instance and an offline run, then an offline run -/
example (boot : Option (Py Bytes)) :
    ∃ w', fromTuf (exUpdEnv defaultTufUrl) defaultTufUrl false none exTufWorld = (.ok ([0], [1]), w') ∧
      (fromTuf (exUpdEnv defaultTufUrl) (defaultTufUrl ++ "//".toList) true boot
        (afterRuns [⟨exUpdEnv stagingTufUrl, stagingTufUrl, false, none⟩, ⟨exUpdEnv defaultTufUrl, defaultTufUrl, true, none⟩] w')).1
        = .ok ([0], [1]) := by
  have h : (fromTuf (exUpdEnv defaultTufUrl) defaultTufUrl false none exTufWorld).1 = .ok ([0], [1]) := by decide +kernel
  cases hf : fromTuf (exUpdEnv defaultTufUrl) defaultTufUrl false none exTufWorld with
  | mk r w' =>
    rw [hf] at h
    dsimp only at h
    subst h
    refine ⟨w', rfl, ?_⟩
    have hs : StoresIn (exUpdEnv defaultTufUrl).library (instanceDir (exUpdEnv defaultTufUrl) defaultTufUrl) := exUpd_stores _
    have hs' : StoresIn (exUpdEnv stagingTufUrl).library (instanceDir (exUpdEnv stagingTufUrl) stagingTufUrl) := exUpd_stores _
    have hb : (exUpdEnv stagingTufUrl).cacheBase = (exUpdEnv defaultTufUrl).cacheBase := by unfold exUpdEnv exTufEnv; rfl
    have hd : stripSlashes stagingTufUrl ≠ stripSlashes defaultTufUrl := by decide
    refine C114_offline_follows (exUpdEnv defaultTufUrl) (exUpdEnv defaultTufUrl) defaultTufUrl (defaultTufUrl ++ "//".toList) none boot
      exTufWorld w' _ _ _ ⟨by decide, by decide, by decide⟩ hs hf ?_ (by decide) rfl
    intro r hr
    rcases List.mem_cons.1 hr with rfl | hr
    · exact ⟨hb, .inr ⟨hd, hs'⟩⟩
    · rcases List.mem_cons.1 hr with rfl | hr
      · exact ⟨rfl, .inl rfl⟩
      · cases hr

/-- an interrupted update -/
example : let env := exTufEnv { exUpdLibrary (instanceDir (exTufEnv exTufLibrary) defaultTufUrl) with
      targetInfo := fun name => .ok (if name = trustedRootName then some ⟨0⟩ else none) }
    (fromTuf env defaultTufUrl false none exTufWorld).1 = .error .tuf ∧
    (fromTuf env defaultTufUrl true none (fromTuf env defaultTufUrl false none exTufWorld).2).1 = .ok ([0], [9]) := by
  intro env
  exact C114_torn env defaultTufUrl none exTufWorld (some [7]) ⟨0⟩ [0] [9] (by decide) (by decide) (by decide)
    (fun _ => rfl) (by decide) (by decide) (by decide)

end Sigstore.Props
