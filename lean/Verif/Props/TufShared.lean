import Verif.Spec.TufShared
import Mathlib.Tactic.Ring
import Mathlib.Logic.Function.Basic

/-!
# C133: processes that share the cache of trust material
-/

namespace Sigstore.Props

open Sigstore.Spec Sigstore.Tuf Sigstore.TufShared

/-! ## Copies -/

theorem copyOf_nil (data : Bytes) : CopyOf data [] := ⟨Nat.zero_le _, fun k x h => by simp at h⟩

theorem copyOf_self (data : Bytes) : CopyOf data data := ⟨Nat.le_refl _, fun _ _ h => .inr h⟩

theorem getElem?_putByte (c : Bytes) (n : Nat) (x : UInt8) (k : Nat) :
    (Cli.putByte c n x)[k]? = if k < n then (if k < c.length then c[k]? else some 0) else if k = n then some x else c[k]? := by
  unfold Cli.putByte
  have hl : ((c ++ List.replicate (n - c.length) 0).take n).length = n := by
    rw [List.length_take, List.length_append, List.length_replicate]; omega
  by_cases h1 : k < n
  · rw [if_pos h1, List.getElem?_append_left (by omega), List.getElem?_take_of_lt h1]
    by_cases h2 : k < c.length
    · rw [if_pos h2, List.getElem?_append_left h2]
    · rw [if_neg h2, List.getElem?_append_right (by omega), List.getElem?_replicate, if_pos (by omega)]
  · rw [if_neg h1, List.getElem?_append_right (by omega), hl]
    by_cases h2 : k = n
    · rw [if_pos h2, h2, Nat.sub_self]; rfl
    · rw [if_neg h2, show k - n = (k - n - 1) + 1 by omega, List.getElem?_cons_succ, List.getElem?_drop]
      congr 1; omega

theorem length_putByte (c : Bytes) (n : Nat) (x : UInt8) : (Cli.putByte c n x).length = max c.length (n + 1) := by
  unfold Cli.putByte
  rw [List.length_append, List.length_take, List.length_append, List.length_replicate, List.length_cons, List.length_drop]
  omega

theorem copyOf_putByte {data c : Bytes} (hc : CopyOf data c) {n : Nat} {x : UInt8} (hx : data[n]? = some x) :
    CopyOf data (Cli.putByte c n x) := by
  obtain ⟨hn, _⟩ := List.getElem?_eq_some_iff.1 hx
  refine ⟨by rw [length_putByte]; have := hc.1; omega, fun k y hy => ?_⟩
  rw [getElem?_putByte] at hy
  split at hy
  · split at hy
    · exact hc.2 k y hy
    · exact .inl (Option.some.inj hy).symm
  · split at hy
    · next h => subst h; obtain rfl := Option.some.inj hy; exact .inr hx
    · exact hc.2 k y hy

theorem putByte_take {data : Bytes} {n : Nat} {x : UInt8} (hx : data[n]? = some x) :
    Cli.putByte (data.take n) n x = data.take (n + 1) := by
  obtain ⟨hn, rfl⟩ := List.getElem?_eq_some_iff.1 hx
  unfold Cli.putByte
  have hl : (data.take n).length = n := by rw [List.length_take]; omega
  rw [hl, Nat.sub_self, List.replicate_zero, List.append_nil, List.take_take, Nat.min_self, List.drop_eq_nil_of_le (by omega)]
  rw [List.take_add_one, List.getElem?_eq_getElem hn]
  rfl

/-! ## The invariant -/

section
variable (cache : Cache) (D : Artifact → Bytes)

/-- somebody has begun to write the file, or it was right -/
def Touched (st : TufShared.State) (a : Artifact) : Prop := ∃ b, st.cache a = some b ∧ CopyOf (D a) b

/-- what the process has read -/
def ReadOk (p : Proc) (a : Artifact) (b : Bytes) : Prop :=
  (p.offline = false → b = D a) ∧ (b = D a ∨ cache a = some b)

/-- what is known of a process at each point -/
def PcOk (st : TufShared.State) (p : Proc) : Pc → Prop
  | .fill a => cache a = none
  | .filling a data _ => cache a = none ∧ data = D a ∧ Touched D st a
  | .want tr => ∀ t, tr = some t → ReadOk cache D p .trustedRoot t
  | .store tr data => (∀ t, tr = some t → ReadOk cache D p .trustedRoot t) ∧ data = D (artifactOf tr)
  | .storing tr data _ =>
    (∀ t, tr = some t → ReadOk cache D p .trustedRoot t) ∧ data = D (artifactOf tr) ∧ Touched D st (artifactOf tr)
  | .load tr => (∀ t, tr = some t → ReadOk cache D p .trustedRoot t) ∧ (p.offline = false → Touched D st (artifactOf tr))
  | .done tr sc => ReadOk cache D p .trustedRoot tr ∧ ReadOk cache D p .signingConfig sc
  | _ => True

theorem PcOk.mono {st st' : TufShared.State} (h : ∀ a, Touched D st a → Touched D st' a) {p : Proc} : ∀ {pc : Pc},
    PcOk cache D st p pc → PcOk cache D st' p pc
  | .filling _ _ _, h' => ⟨h'.1, h'.2.1, h _ h'.2.2⟩
  | .storing _ _ _, h' => ⟨h'.1, h'.2.1, h _ h'.2.2⟩
  | .load _, h' => ⟨h'.1, fun ho => h _ (h'.2 ho)⟩
  | .start, _ => trivial
  | .check _, _ => trivial
  | .fill _, h' => h'
  | .filled, _ => trivial
  | .want _, h' => h'
  | .store _ _, h' => h'
  | .done _ _, h' => h'
  | .failed _, _ => trivial

/-- the invariant -/
structure CacheInv (procs : List Proc) (st : TufShared.State) : Prop where
  files : ∀ a, st.cache a = cache a ∨ Touched D st a
  pcs : ∀ i p, procs[i]? = some p → PcOk cache D st p (st.pcs i)

variable {cache D}

theorem CacheInv.goto {procs : List Proc} {st : TufShared.State} (hi : CacheInv cache D procs st) {i : Nat} {p : Proc}
    (hp : procs[i]? = some p) {pc : Pc} (hpc : PcOk cache D st p pc) : CacheInv cache D procs (st.goto i pc) := by
  refine ⟨hi.files, fun j q hq => ?_⟩
  have hm : ∀ a, Touched D st a → Touched D (st.goto i pc) a := fun _ h => h
  unfold State.goto
  by_cases hj : j = i
  · subst hj
    obtain rfl := Option.some.inj (hp.symm.trans hq)
    dsimp only
    rw [Function.update_self]
    exact PcOk.mono _ _ hm hpc
  · dsimp only
    rw [Function.update_of_ne hj]
    exact PcOk.mono _ _ hm (hi.pcs j q hq)

theorem touched_set {st : TufShared.State} {a : Artifact} {b : Bytes} (hb : CopyOf (D a) b) : Touched D (st.set a b) a :=
  ⟨b, by unfold State.set; dsimp only; rw [Function.update_self], hb⟩

theorem CacheInv.set {procs : List Proc} {st : TufShared.State} (hi : CacheInv cache D procs st) {a : Artifact} {b : Bytes}
    (hb : CopyOf (D a) b) : CacheInv cache D procs (st.set a b) := by
  have hm : ∀ a', Touched D st a' → Touched D (st.set a b) a' := fun a' h => by
    by_cases ha : a' = a
    · rw [ha]; exact touched_set hb
    · obtain ⟨c, h1, h2⟩ := h
      exact ⟨c, by unfold State.set; dsimp only; rw [Function.update_of_ne ha]; exact h1, h2⟩
  refine ⟨fun a' => ?_, fun j q hq => PcOk.mono _ _ hm (hi.pcs j q hq)⟩
  by_cases ha : a' = a
  · rw [ha]; exact .inr (touched_set hb)
  · rcases hi.files a' with h | h
    · left; unfold State.set; dsimp only; rw [Function.update_of_ne ha]; exact h
    · exact .inr (hm a' h)

theorem pcOk_nextFill (st : TufShared.State) (p : Proc) (a : Artifact) : PcOk cache D st p (nextFill a) := by
  cases a <;> trivial

theorem step_inv {procs : List Proc} (hs : SameMaterial procs cache D) {st : TufShared.State} (hi : CacheInv cache D procs st)
    (i : Nat) : CacheInv cache D procs (step procs st i) := by
  unfold step
  split
  · exact hi
  · next p hp =>
    have hmem : p ∈ procs := List.mem_of_getElem? hp
    have hpc := hi.pcs i p hp
    split
    · split
      · exact hi.goto hp trivial
      · exact hi.goto hp trivial
    · next a h =>
      split
      · exact hi.goto hp (pcOk_nextFill _ _ _)
      · next hn =>
        refine hi.goto hp ?_
        rcases hi.files a with h1 | ⟨b, h1, _⟩
        · exact h1.symm.trans hn
        · rw [h1] at hn; cases hn
    · next a h =>
      rw [h] at hpc
      split
      · exact hi.goto hp (pcOk_nextFill _ _ _)
      · next data hd =>
        split
        · exact (hi.set (copyOf_nil _)).goto hp ⟨hpc, hs.embedded p hmem a data hpc hd, touched_set (copyOf_nil _)⟩
        · exact hi.goto hp (pcOk_nextFill _ _ _)
        · exact hi.goto hp trivial
    · next a data n h =>
      rw [h] at hpc
      obtain ⟨h1, rfl, b, h2, h3⟩ := hpc
      split
      · split
        · exact hi.goto hp (pcOk_nextFill _ _ _)
        · next byte hb =>
          rw [h2]
          have := copyOf_putByte h3 hb
          exact (hi.set this).goto hp ⟨h1, rfl, touched_set this⟩
      · exact hi.goto hp trivial
    · split
      · exact hi.goto hp (fun _ h => by cases h)
      · split
        · exact hi.goto hp trivial
        · split
          · exact hi.goto hp (fun _ h => by cases h)
          · exact hi.goto hp trivial
    · next tr h =>
      rw [h] at hpc
      split
      · next ho => exact hi.goto hp ⟨hpc, fun h => by rw [h] at ho; cases ho⟩
      · next ho =>
        have ho : p.offline = false := by simpa using ho
        split
        · exact hi.goto hp trivial
        · exact hi.goto hp trivial
        · next info ht =>
          split
          · next hf =>
            refine hi.goto hp ⟨hpc, fun _ => ?_⟩
            cases hb : st.cache (artifactOf tr) with
            | none => rw [hb] at hf; cases hf
            | some b =>
              rw [hb] at hf
              obtain rfl := hs.listed p hmem ho _ _ b ht hf
              exact ⟨_, hb, copyOf_self _⟩
          · split
            · exact hi.goto hp trivial
            · exact hi.goto hp trivial
            · next data hd => exact hi.goto hp ⟨hpc, hs.handed p hmem ho _ _ _ ht hd⟩
    · next tr data h =>
      rw [h] at hpc
      split
      · exact (hi.set (copyOf_nil _)).goto hp ⟨hpc.1, hpc.2, touched_set (copyOf_nil _)⟩
      · exact hi.goto hp trivial
    · next tr data n h =>
      rw [h] at hpc
      obtain ⟨h1, rfl, b, h2, h3⟩ := hpc
      split
      · split
        · exact hi.goto hp ⟨h1, fun _ => ⟨b, h2, h3⟩⟩
        · next byte hb =>
          rw [h2]
          have := copyOf_putByte h3 hb
          exact (hi.set this).goto hp ⟨h1, rfl, touched_set this⟩
      · exact hi.goto hp trivial
    · next tr h =>
      rw [h] at hpc
      split
      · exact hi.goto hp trivial
      · next b hb =>
        split
        · exact hi.goto hp trivial
        · next hok =>
          have hr : ReadOk cache D p (artifactOf tr) b := by
            constructor
            · intro ho
              obtain ⟨b', h1, h2⟩ := hpc.2 ho
              obtain rfl := Option.some.inj (hb.symm.trans h1)
              exact hs.readable p hmem _ _ h2 hok
            · rcases hi.files (artifactOf tr) with h1 | ⟨b', h1, h2⟩
              · exact .inr (h1.symm.trans hb)
              · obtain rfl := Option.some.inj (hb.symm.trans h1)
                exact .inl (hs.readable p hmem _ _ h2 hok)
          split
          · exact hi.goto hp (fun t ht => by obtain rfl := Option.some.inj ht; exact hr)
          · next t => exact hi.goto hp ⟨hpc.1 t rfl, hr⟩
    · exact hi
    · exact hi

theorem run_inv {procs : List Proc} (hs : SameMaterial procs cache D) : ∀ (schedule : List Nat) {st : TufShared.State},
    CacheInv cache D procs st → CacheInv cache D procs (TufShared.run procs st schedule)
  | [], _, hi => hi
  | i :: schedule, _, hi => run_inv hs schedule (step_inv hs hi i)

end

/-- **C133** Any number of processes share the cache, interleave in any way and may fail to write or be killed at any moment.  If
they are about the same material, then every online process that succeeds uses exactly this material, whatever was in the cache,
and every offline process that succeeds uses it or what was in the cache at the beginning.  Missing compared with the property:
processes that bring along other material than the repository lists (`C133_race`), and offline processes after a killed one
(`C133_killed`). -/
theorem C133_same_material_partial (procs : List Proc) (cache : Cache) (D : Artifact → Bytes) (hs : SameMaterial procs cache D)
    (schedule : List Nat) (i : Nat) (p : Proc) (hp : procs[i]? = some p) (tr sc : Bytes)
    (hd : (TufShared.run procs (.begin cache) schedule).pcs i = .done tr sc) :
    (p.offline = false → tr = D .trustedRoot ∧ sc = D .signingConfig) ∧
    (tr = D .trustedRoot ∨ cache .trustedRoot = some tr) ∧ (sc = D .signingConfig ∨ cache .signingConfig = some sc) := by
  have hi : CacheInv cache D procs (.begin cache) := ⟨fun _ => .inl rfl, fun _ _ _ => trivial⟩
  have h := (run_inv hs schedule hi).pcs i p hp
  rw [hd] at h
  exact ⟨fun ho => ⟨h.1.1 ho, h.2.1 ho⟩, h.1.2, h.2.2⟩

/-! ## Offline processes repair nothing -/

/-- what is known of offline processes when a file exists that their parsers refuse -/
def StuckPc (a : Artifact) : Pc → Prop
  | .fill a' => a' ≠ a
  | .filling a' _ _ => a' ≠ a
  | .want tr => tr = none ∨ a = .signingConfig
  | .load tr => tr = none ∨ a = .signingConfig
  | .store _ _ => False
  | .storing _ _ _ => False
  | .done _ _ => False
  | _ => True

theorem stuck_step {procs : List Proc} {a : Artifact} {b : Bytes} (hoff : ∀ p ∈ procs, p.offline = true)
    (hbad : ∀ p ∈ procs, p.parse a b ≠ .ok ()) {st : TufShared.State} (hc : st.cache a = some b)
    (hpcs : ∀ i p, procs[i]? = some p → StuckPc a (st.pcs i)) (i : Nat) :
    (step procs st i).cache a = some b ∧ ∀ j p, procs[j]? = some p → StuckPc a ((step procs st i).pcs j) := by
  have hgoto : ∀ {st : TufShared.State} {pc : Pc}, st.cache a = some b → (∀ j p, procs[j]? = some p → StuckPc a (st.pcs j)) →
      StuckPc a pc → (st.goto i pc).cache a = some b ∧ ∀ j p, procs[j]? = some p → StuckPc a ((st.goto i pc).pcs j) := by
    intro st pc h1 h2 h3
    refine ⟨h1, fun j p hj => ?_⟩
    unfold State.goto
    dsimp only
    by_cases h : j = i
    · rw [h, Function.update_self]; exact h3
    · rw [Function.update_of_ne h]; exact h2 j p hj
  have hset : ∀ {a' : Artifact} {c : Bytes}, a' ≠ a → (st.set a' c).cache a = some b := by
    intro a' c h
    unfold State.set
    dsimp only
    rw [Function.update_of_ne (Ne.symm h)]
    exact hc
  have hnext : ∀ a', StuckPc a (nextFill a') := by intro a'; cases a' <;> trivial
  unfold step
  split
  · exact ⟨hc, hpcs⟩
  · next p hp =>
    have hmem : p ∈ procs := List.mem_of_getElem? hp
    have hpc := hpcs i p hp
    split
    · split
      · exact hgoto hc hpcs trivial
      · exact hgoto hc hpcs trivial
    · next a' h =>
      split
      · exact hgoto hc hpcs (hnext _)
      · next hn => exact hgoto hc hpcs (fun he => by rw [he, hc] at hn; cases hn)
    · next a' h =>
      rw [h] at hpc
      split
      · exact hgoto hc hpcs (hnext _)
      · split
        · exact hgoto (hset hpc) hpcs hpc
        · exact hgoto hc hpcs (hnext _)
        · exact hgoto hc hpcs trivial
    · next a' data n h =>
      rw [h] at hpc
      split
      · split
        · exact hgoto hc hpcs (hnext _)
        · exact hgoto (hset hpc) hpcs hpc
      · exact hgoto hc hpcs trivial
    · split
      · exact hgoto hc hpcs (.inl rfl)
      · next h => exact absurd (hoff p hmem) h
    · next tr h =>
      rw [h] at hpc
      split
      · exact hgoto hc hpcs hpc
      · next h => exact absurd (hoff p hmem) h
    · next tr data h => rw [h] at hpc; exact hpc.elim
    · next tr data n h => rw [h] at hpc; exact hpc.elim
    · next tr h =>
      rw [h] at hpc
      split
      · exact hgoto hc hpcs trivial
      · next c hcc =>
        split
        · exact hgoto hc hpcs trivial
        · next hok =>
          split
          · refine hgoto hc hpcs (.inr ?_)
            cases a with
            | signingConfig => rfl
            | trustedRoot =>
              obtain rfl := Option.some.inj (hc.symm.trans hcc)
              exact absurd hok (hbad p hmem)
          · next t =>
            rcases hpc with hpc | rfl
            · cases hpc
            · obtain rfl := Option.some.inj (hc.symm.trans hcc)
              exact absurd hok (hbad p hmem)
    · exact ⟨hc, hpcs⟩
    · exact ⟨hc, hpcs⟩

theorem stuck_run {procs : List Proc} {a : Artifact} {b : Bytes} (hoff : ∀ p ∈ procs, p.offline = true)
    (hbad : ∀ p ∈ procs, p.parse a b ≠ .ok ()) : ∀ (schedule : List Nat) {st : TufShared.State}, st.cache a = some b →
    (∀ i p, procs[i]? = some p → StuckPc a (st.pcs i)) → (TufShared.run procs st schedule).cache a = some b ∧
      ∀ j p, procs[j]? = some p → StuckPc a ((TufShared.run procs st schedule).pcs j)
  | [], _, hc, hpcs => ⟨hc, hpcs⟩
  | i :: schedule, _, hc, hpcs =>
    stuck_run hoff hbad schedule (stuck_step hoff hbad hc hpcs i).1 (stuck_step hoff hbad hc hpcs i).2

/-- **C133** A file of the cache that the parsers refuse is never repaired by offline processes, and none of them succeeds, however
many there are and however they interleave: files are only filled from the package if they do not exist. -/
theorem C133_stuck (procs : List Proc) (cache : Cache) (a : Artifact) (b : Bytes) (hc : cache a = some b)
    (hoff : ∀ p ∈ procs, p.offline = true) (hbad : ∀ p ∈ procs, p.parse a b ≠ .ok ()) (schedule : List Nat) :
    (TufShared.run procs (.begin cache) schedule).cache a = some b ∧
    ∀ i p tr sc, procs[i]? = some p → (TufShared.run procs (.begin cache) schedule).pcs i ≠ .done tr sc := by
  have h := stuck_run hoff hbad schedule (st := .begin cache) hc (fun _ _ _ => trivial)
  refine ⟨h.1, fun i p tr sc hp hd => ?_⟩
  have := h.2 i p hp
  rw [hd] at this
  exact this

/-- **C133** (refuted in general) If the first process is killed just after it has opened the file of the trusted root, then from
then on no offline process succeeds, although the package has the material:
the file is empty and stays so. -/
theorem C133_killed (p : Proc) (hmk : p.mkdir = true) (data : Bytes) (hemb : p.embedded .trustedRoot = some data)
    (hop : p.opening .trustedRoot = .opened) (cache : Cache) (hempty : cache .trustedRoot = none) :
    ∃ killed, ∀ procs : List Proc, (∀ q ∈ procs, q.offline = true) → (∀ q ∈ procs, q.parse .trustedRoot [] ≠ .ok ()) →
      ∀ schedule i q tr sc, procs[i]? = some q →
        (TufShared.run procs (.begin (TufShared.run [p] (.begin cache) killed).cache) schedule).pcs i ≠ .done tr sc := by
  refine ⟨[0, 0, 0], fun procs hoff hbad schedule i q tr sc hq => ?_⟩
  refine (C133_stuck procs _ .trustedRoot [] ?_ hoff hbad schedule).2 i q tr sc hq
  simp [TufShared.run, step, State.goto, State.begin, State.set, hmk, hemb, hop, hempty]

/-! ## What one process does alone -/

/-- some steps of one process lead from one state to the other -/
def Alone (procs : List Proc) (i : Nat) (st st' : TufShared.State) : Prop :=
  ∃ k, TufShared.run procs st (List.replicate k i) = st'

theorem Alone.refl (procs : List Proc) (i : Nat) (st : TufShared.State) : Alone procs i st st := ⟨0, rfl⟩

theorem Alone.trans {procs : List Proc} {i : Nat} {a b c : TufShared.State} : Alone procs i a b → Alone procs i b c →
    Alone procs i a c
  | ⟨k, hk⟩, ⟨l, hl⟩ => ⟨k + l, by
      unfold TufShared.run at *
      rw [← List.replicate_append_replicate, List.foldl_append, hk, hl]⟩

theorem Alone.step {procs : List Proc} {i : Nat} {a b : TufShared.State} (h : TufShared.step procs a i = b) : Alone procs i a b := ⟨1, h⟩

theorem goto_goto (st : TufShared.State) (i : Nat) (x y : Pc) : (st.goto i x).goto i y = st.goto i y := by
  unfold State.goto; simp

theorem set_set (st : TufShared.State) (a : Artifact) (x y : Bytes) : (st.set a x).set a y = st.set a y := by
  unfold State.set; simp

theorem goto_set (st : TufShared.State) (i : Nat) (x : Pc) (a : Artifact) (y : Bytes) :
    (st.goto i x).set a y = (st.set a y).goto i x := rfl

theorem goto_pcs (st : TufShared.State) (i : Nat) (x : Pc) : (st.goto i x).pcs i = x := by unfold State.goto; simp

theorem set_cache (st : TufShared.State) (a : Artifact) (x : Bytes) : (st.set a x).cache a = some x := by unfold State.set; simp

theorem set_same {st : TufShared.State} {a : Artifact} {x : Bytes} (h : st.cache a = some x) : st.set a x = st := by
  unfold State.set; rw [← h, Function.update_eq_self]

/-- the loop that writes a file -/
theorem write_alone {procs : List Proc} {i : Nat} {a : Artifact} {data : Bytes} {at_ : Nat → Pc} {fin : Pc}
    (hstep : ∀ (st : TufShared.State) n, st.pcs i = at_ n → TufShared.step procs st i = match data[n]? with
      | none => st.goto i fin
      | some byte => (st.set a (Cli.putByte ((st.cache a).getD []) n byte)).goto i (at_ (n + 1))) :
    ∀ (m n : Nat) (st : TufShared.State), m = data.length - n → n ≤ data.length → st.pcs i = at_ n →
      st.cache a = some (data.take n) → Alone procs i st ((st.set a data).goto i fin)
  | 0, n, st, hm, hn, hpc, hc => by
    have hn : n = data.length := by omega
    refine .step ?_
    rw [hstep st n hpc, hn, List.getElem?_eq_none (Nat.le_refl _)]
    rw [hn, List.take_length] at hc
    rw [set_same hc]
  | m + 1, n, st, hm, hn, hpc, hc => by
    have hlt : n < data.length := by omega
    refine .trans (.step (b := (st.set a (data.take (n + 1))).goto i (at_ (n + 1))) ((hstep st n hpc).trans ?_)) ?_
    · rw [List.getElem?_eq_getElem hlt]
      dsimp only
      rw [hc, Option.getD_some, putByte_take (List.getElem?_eq_getElem hlt)]
    · have := write_alone hstep m (n + 1) ((st.set a (data.take (n + 1))).goto i (at_ (n + 1))) (by omega) hlt (goto_pcs _ _ _)
        (set_cache _ _ _)
      rw [goto_set, set_set, goto_goto] at this
      exact this

/-- the point after a file has been read -/
def afterLoad (b : Bytes) : Option Bytes → Pc
  | none => .want (some b)
  | some t => .done t b

section
variable {procs : List Proc} {i : Nat} {p : Proc} {E : Artifact → Bytes} (hp : procs[i]? = some p) (hw : CanFill p E)
include hp hw

theorem fill_alone {st : TufShared.State} {a : Artifact} (hpc : st.pcs i = .fill a) :
    Alone procs i st ((st.set a (E a)).goto i (nextFill a)) := by
  refine .trans (.step (b := (st.set a []).goto i (.filling a (E a) 0)) ?_) ?_
  · unfold TufShared.step
    rw [hp]; dsimp only
    rw [hpc]; dsimp only
    rw [hw.embedded, hw.opening]
  · have := write_alone (procs := procs) (i := i) (a := a) (data := E a) (at_ := .filling a (E a)) (fin := nextFill a) (by
      intro st n h
      unfold TufShared.step
      rw [hp]; dsimp only
      rw [h]; dsimp only
      rw [hw.canPut, if_pos rfl]; rfl) _ 0 ((st.set a []).goto i (.filling a (E a) 0)) rfl (Nat.zero_le _) (goto_pcs _ _ _) (set_cache _ _ _)
    rw [goto_set, set_set, goto_goto] at this
    exact this

/-- one round of the loop over the artifacts -/
theorem round_alone {st : TufShared.State} {a : Artifact} (hpc : st.pcs i = .check a) :
    Alone procs i st ((st.set a ((st.cache a).getD (E a))).goto i (nextFill a)) := by
  cases hc : st.cache a with
  | some b =>
    refine .step ?_
    unfold TufShared.step
    rw [hp]; dsimp only
    rw [hpc]; dsimp only
    rw [hc, Option.getD_some, set_same hc]
  | none =>
    rw [Option.getD_none]
    refine .trans (.step (b := st.goto i (.fill a)) ?_) ?_
    · unfold TufShared.step
      rw [hp]; dsimp only
      rw [hpc]; dsimp only
      rw [hc]
    · have := fill_alone hp hw (goto_pcs st i (.fill a))
      rw [goto_set, goto_goto] at this
      exact this

/-- from the beginning to the end of the loop -/
theorem filled_alone {st : TufShared.State} (hpc : st.pcs i = .start) : Alone procs i st
    (((st.set .trustedRoot ((st.cache .trustedRoot).getD (E .trustedRoot))).set .signingConfig
      ((st.cache .signingConfig).getD (E .signingConfig))).goto i .filled) := by
  have h0 : Alone procs i st (st.goto i (.check .trustedRoot)) := by
    refine .step ?_
    unfold TufShared.step
    rw [hp]; dsimp only
    rw [hpc]; dsimp only
    rw [hw.mkdir, if_pos rfl]
  have h1 := round_alone hp hw (goto_pcs st i (.check .trustedRoot))
  rw [goto_set, goto_goto] at h1
  have h2 := round_alone hp hw (st := (st.set .trustedRoot ((st.cache .trustedRoot).getD (E .trustedRoot))).goto i
    (.check .signingConfig)) (goto_pcs _ _ _)
  rw [goto_set, goto_goto] at h2
  exact h0.trans (h1.trans h2)

omit hw in
theorem load_step {st : TufShared.State} {tr : Option Bytes} (hpc : st.pcs i = .load tr) {b : Bytes}
    (hb : st.cache (artifactOf tr) = some b) (hok : p.parse (artifactOf tr) b = .ok ()) :
    TufShared.step procs st i = st.goto i (afterLoad b tr) := by
  unfold TufShared.step
  rw [hp]; dsimp only
  rw [hpc]; dsimp only
  cases tr <;> simp only [hb, hok, afterLoad]

end

section
variable {procs : List Proc} {i : Nat} {p : Proc} {E D : Artifact → Bytes} (hp : procs[i]? = some p) (hw : Works p E D)
include hp hw

/-- obtaining an artifact -/
theorem want_alone {st : TufShared.State} {tr : Option Bytes} (hpc : st.pcs i = .want tr) :
    Alone procs i st ((st.set (artifactOf tr) (D (artifactOf tr))).goto i (.load tr)) := by
  obtain ⟨info, h1, h2, h3⟩ := hw.targets (artifactOf tr)
  by_cases hf : (st.cache (artifactOf tr)).any (p.fits info) = true
  · refine .step ?_
    have hc : st.cache (artifactOf tr) = some (D (artifactOf tr)) := by
      cases hb : st.cache (artifactOf tr) with
      | none => rw [hb] at hf; cases hf
      | some b => rw [hb] at hf; rw [(h2 b).1 hf]
    unfold TufShared.step
    rw [hp]; dsimp only
    rw [hpc]; dsimp only
    rw [hw.online, if_neg (by decide), h1]; dsimp only
    rw [if_pos hf, set_same hc]
  · refine .trans (.step (b := st.goto i (.store tr (D (artifactOf tr)))) ?_) (.trans (.step
      (b := (st.set (artifactOf tr) []).goto i (.storing tr (D (artifactOf tr)) 0)) ?_) ?_)
    · unfold TufShared.step
      rw [hp]; dsimp only
      rw [hpc]; dsimp only
      rw [hw.online, if_neg (by decide), h1]; dsimp only
      rw [if_neg hf, h3]
    · unfold TufShared.step
      rw [hp]; dsimp only
      rw [goto_pcs]; dsimp only
      rw [hw.opening]; dsimp only
      rw [goto_set, goto_goto]
    · have := write_alone (procs := procs) (i := i) (a := artifactOf tr) (data := D (artifactOf tr))
        (at_ := .storing tr (D (artifactOf tr))) (fin := .load tr) (by
          intro st n h
          unfold TufShared.step
          rw [hp]; dsimp only
          rw [h]; dsimp only
          rw [hw.canPut, if_pos rfl]; rfl) _ 0 ((st.set (artifactOf tr) []).goto i (.storing tr (D (artifactOf tr)) 0)) rfl
        (Nat.zero_le _) (goto_pcs _ _ _) (set_cache _ _ _)
      rw [goto_set, set_set, goto_goto] at this
      exact this

/-- from the trusted root that was read to the end -/
theorem config_alone {st : TufShared.State} {t : Bytes} (hpc : st.pcs i = .want (some t)) :
    Alone procs i st ((st.set .signingConfig (D .signingConfig)).goto i (.done t (D .signingConfig))) := by
  refine (want_alone hp hw hpc).trans (.step ?_)
  exact (load_step hp (st := (st.set .signingConfig (D .signingConfig)).goto i (.load (some t))) (goto_pcs _ _ _)
    (b := D .signingConfig) rfl (hw.parseD _)).trans (goto_goto _ _ _ _)

/-- from the beginning to the point at which the trusted root has been obtained -/
theorem begin_alone {st : TufShared.State} (hpc : st.pcs i = .start) : ∃ b c,
    Alone procs i st ((((st.set .trustedRoot b).set .signingConfig c).set .trustedRoot (D .trustedRoot)).goto i (.load none)) := by
  have h1 := filled_alone hp hw.toCanFill hpc
  generalize (st.cache .trustedRoot).getD (E .trustedRoot) = b at h1
  generalize (st.cache .signingConfig).getD (E .signingConfig) = c at h1
  have h2 : Alone procs i (((st.set .trustedRoot b).set .signingConfig c).goto i .filled)
      (((st.set .trustedRoot b).set .signingConfig c).goto i (.want none)) := by
    refine .step ?_
    unfold TufShared.step
    rw [hp]; dsimp only
    rw [goto_pcs]; dsimp only
    rw [hw.online, if_neg (by decide), hw.bootstrap]; dsimp only
    rw [hw.refresh, if_pos rfl, goto_goto]
  have h3 := want_alone hp hw (goto_pcs ((st.set .trustedRoot b).set .signingConfig c) i (.want none))
  rw [goto_set, goto_goto] at h3
  exact ⟨b, c, h1.trans (h2.trans h3)⟩

end

/-- **C133** Whatever is in the cache and wherever the other processes stopped: an online process for which everything works, and
that is not disturbed, succeeds with what the repository lists, and leaves this in the cache. -/
theorem C133_heals (procs : List Proc) (i : Nat) (p : Proc) (hp : procs[i]? = some p) (E D : Artifact → Bytes) (hw : Works p E D)
    (st : TufShared.State) (hpc : st.pcs i = .start) :
    ∃ k, let st' := TufShared.run procs st (List.replicate k i)
      st'.pcs i = .done (D .trustedRoot) (D .signingConfig) ∧ ∀ a, st'.cache a = some (D a) := by
  obtain ⟨b, c, h1⟩ := begin_alone hp hw hpc
  have h2 := config_alone hp hw (st := (((st.set .trustedRoot b).set .signingConfig c).set .trustedRoot (D .trustedRoot)).goto i
    (.want (some (D .trustedRoot)))) (goto_pcs _ _ _)
  obtain ⟨k, hk⟩ := h1.trans (.trans (.step ((load_step hp (st := (((st.set .trustedRoot b).set .signingConfig c).set .trustedRoot
    (D .trustedRoot)).goto i (.load none)) (goto_pcs _ _ _) (b := D .trustedRoot) rfl (hw.parseD _)).trans (goto_goto _ _ _ _))) h2)
  refine ⟨k, ?_⟩
  dsimp only
  rw [hk]
  refine ⟨goto_pcs _ _ _, fun a => ?_⟩
  cases a <;> rfl

/-- **C133** An offline process that is not disturbed and can write files succeeds with what is in the cache and, for files that do
not exist, with what the package has, if these can be parsed. -/
theorem C133_offline_alone (procs : List Proc) (i : Nat) (p : Proc) (hp : procs[i]? = some p) (E : Artifact → Bytes) (hw : CanFill p E)
    (hoff : p.offline = true) (st : TufShared.State) (hpc : st.pcs i = .start)
    (hok : ∀ a, p.parse a ((st.cache a).getD (E a)) = .ok ()) :
    ∃ k, (TufShared.run procs st (List.replicate k i)).pcs i = .done ((st.cache .trustedRoot).getD (E .trustedRoot))
      ((st.cache .signingConfig).getD (E .signingConfig)) := by
  have h1 := filled_alone hp hw hpc
  generalize htr : (st.cache .trustedRoot).getD (E .trustedRoot) = tr at h1
  generalize hsc : (st.cache .signingConfig).getD (E .signingConfig) = sc at h1
  have hoff_step : ∀ {s : TufShared.State} {t : Option Bytes}, s.pcs i = .want t → TufShared.step procs s i = s.goto i (.load t) := by
    intro s t h
    unfold TufShared.step
    rw [hp]; dsimp only
    rw [h]; dsimp only
    rw [hoff, if_pos rfl]
  have h2 : Alone procs i (((st.set .trustedRoot tr).set .signingConfig sc).goto i .filled)
      (((st.set .trustedRoot tr).set .signingConfig sc).goto i (.want none)) := by
    refine .step ?_
    unfold TufShared.step
    rw [hp]; dsimp only
    rw [goto_pcs]; dsimp only
    rw [hoff, if_pos rfl, goto_goto]
  have h3 := Alone.step (hoff_step (goto_pcs ((st.set .trustedRoot tr).set .signingConfig sc) i (.want none)))
  rw [goto_goto] at h3
  have h4 := Alone.step (load_step hp (st := ((st.set .trustedRoot tr).set .signingConfig sc).goto i (.load none)) (goto_pcs _ _ _)
    (b := tr) rfl (htr ▸ hok .trustedRoot))
  rw [goto_goto] at h4
  have h5 := Alone.step (hoff_step (goto_pcs ((st.set .trustedRoot tr).set .signingConfig sc) i (.want (some tr))))
  rw [goto_goto] at h5
  have h6 := Alone.step (load_step hp (st := ((st.set .trustedRoot tr).set .signingConfig sc).goto i (.load (some tr))) (goto_pcs _ _ _)
    (b := sc) rfl (hsc ▸ hok .signingConfig))
  rw [goto_goto] at h6
  obtain ⟨k, hk⟩ := h1.trans (h2.trans (h3.trans (h4.trans (h5.trans h6))))
  exact ⟨k, by rw [hk, goto_pcs]; rfl⟩

/-- a process that has failed takes no further step, whatever the others do -/
theorem failed_final (procs : List Proc) (i : Nat) (e : Exc) (schedule : List Nat) :
    ∀ st : TufShared.State, st.pcs i = .failed e → (TufShared.run procs st schedule).pcs i = .failed e := by
  induction schedule with
  | nil => exact fun _ h => h
  | cons j rest ih =>
    intro st h
    refine ih (TufShared.step procs st j) ?_
    by_cases hj : j = i
    · subst hj
      unfold TufShared.step
      cases procs[j]? with
      | none => exact h
      | some p =>
        dsimp only
        rw [h]
        exact h
    · have other : ∀ (s : TufShared.State) pc, (s.goto j pc).pcs i = s.pcs i := fun s pc => by
        simp [State.goto, Ne.symm hj]
      unfold TufShared.step
      repeat' split
      all_goals first | exact h | exact (other _ _).trans h

/-- **C133** An offline process that is not disturbed and can write files fails, for good and with the parser's exception, if what is
in the cache – or, for files that do not exist, in the package – cannot be parsed.  It does not fetch or restore anything. -/
theorem C133_offline_fails (procs : List Proc) (i : Nat) (p : Proc) (hp : procs[i]? = some p) (E : Artifact → Bytes) (hw : CanFill p E)
    (hoff : p.offline = true) (st : TufShared.State) (hpc : st.pcs i = .start) (e : Exc)
    (hbad : p.parse .trustedRoot ((st.cache .trustedRoot).getD (E .trustedRoot)) = .error e ∨
      (p.parse .trustedRoot ((st.cache .trustedRoot).getD (E .trustedRoot)) = .ok () ∧
        p.parse .signingConfig ((st.cache .signingConfig).getD (E .signingConfig)) = .error e)) :
    ∃ k, ∀ schedule, (TufShared.run procs (TufShared.run procs st (List.replicate k i)) schedule).pcs i = .failed e := by
  suffices h : ∃ k, (TufShared.run procs st (List.replicate k i)).pcs i = .failed e from
    h.imp fun k hk schedule => failed_final procs i e schedule _ hk
  have h1 := filled_alone hp hw hpc
  generalize htr : (st.cache .trustedRoot).getD (E .trustedRoot) = tr at h1 hbad
  generalize hsc : (st.cache .signingConfig).getD (E .signingConfig) = sc at h1 hbad
  have hoff_step : ∀ {s : TufShared.State} {t : Option Bytes}, s.pcs i = .want t → TufShared.step procs s i = s.goto i (.load t) := by
    intro s t h
    unfold TufShared.step
    rw [hp]; dsimp only
    rw [h]; dsimp only
    rw [hoff, if_pos rfl]
  have hfail : ∀ {s : TufShared.State} {t : Option Bytes} {b : Bytes}, s.pcs i = .load t → s.cache (artifactOf t) = some b →
      p.parse (artifactOf t) b = .error e → TufShared.step procs s i = s.goto i (.failed e) := by
    intro s t b h hb he
    unfold TufShared.step
    rw [hp]; dsimp only
    rw [h]; dsimp only
    simp only [hb, he]
  have h2 : Alone procs i (((st.set .trustedRoot tr).set .signingConfig sc).goto i .filled)
      (((st.set .trustedRoot tr).set .signingConfig sc).goto i (.want none)) := by
    refine .step ?_
    unfold TufShared.step
    rw [hp]; dsimp only
    rw [goto_pcs]; dsimp only
    rw [hoff, if_pos rfl, goto_goto]
  have h3 := Alone.step (hoff_step (goto_pcs ((st.set .trustedRoot tr).set .signingConfig sc) i (.want none)))
  rw [goto_goto] at h3
  rcases hbad with he | ⟨hok, he⟩
  · have h4 := Alone.step (hfail (goto_pcs ((st.set .trustedRoot tr).set .signingConfig sc) i (.load none)) (b := tr) rfl he)
    obtain ⟨k, hk⟩ := h1.trans (h2.trans (h3.trans h4))
    exact ⟨k, by rw [hk, goto_pcs]⟩
  · have h4 := Alone.step (load_step hp (st := ((st.set .trustedRoot tr).set .signingConfig sc).goto i (.load none)) (goto_pcs _ _ _)
      (b := tr) rfl hok)
    rw [goto_goto] at h4
    have h5 := Alone.step (hoff_step (goto_pcs ((st.set .trustedRoot tr).set .signingConfig sc) i (.want (some tr))))
    rw [goto_goto] at h5
    have h6 := Alone.step (hfail (goto_pcs ((st.set .trustedRoot tr).set .signingConfig sc) i (.load (some tr))) (b := sc) rfl he)
    obtain ⟨k, hk⟩ := h1.trans (h2.trans (h3.trans (h4.trans (h5.trans h6))))
    exact ⟨k, by rw [hk, goto_pcs]⟩

/-- **C133** (refuted in general) Two online processes for which everything works, on an empty cache: there is a schedule in which
the first ends successfully with the trusted root of the package, although the repository lists another.  The second saw that the
file does not exist, and fills it from the package after the first has downloaded and verified it and before it reads it. -/
theorem C133_race (p : Proc) (E D : Artifact → Bytes) (hw : Works p E D) (cache : Cache) (hempty : cache .trustedRoot = none) :
    ∃ schedule, (TufShared.run [p, p] (.begin cache) schedule).pcs 0 = .done (E .trustedRoot) (D .signingConfig) := by
  -- the second process comes to the point before it fills
  have h0 : TufShared.run [p, p] (.begin cache) [1, 1] = (State.begin cache).goto 1 (.fill .trustedRoot) := by
    simp [TufShared.run, step, State.goto, State.begin, hw.mkdir, hempty]
  -- the first downloads
  obtain ⟨b, c, k1, h1⟩ := begin_alone (procs := [p, p]) (i := 0) rfl hw (st := (State.begin cache).goto 1 (.fill .trustedRoot)) rfl
  -- the second fills
  obtain ⟨k2, h2⟩ := fill_alone (procs := [p, p]) (i := 1) rfl hw.toCanFill (a := .trustedRoot) (st := ((((State.begin cache).goto 1
    (.fill .trustedRoot)).set .trustedRoot b).set .signingConfig c |>.set .trustedRoot (D .trustedRoot)).goto 0 (.load none)) rfl
  -- the first reads
  obtain ⟨k3, h3⟩ := Alone.trans (.step (load_step (procs := [p, p]) (i := 0) rfl (st := (((((State.begin cache).goto 1
    (.fill .trustedRoot)).set .trustedRoot b).set .signingConfig c |>.set .trustedRoot (D .trustedRoot)).goto 0 (.load none)).set
      .trustedRoot (E .trustedRoot) |>.goto 1 (nextFill .trustedRoot)) rfl rfl (hw.parseE _)))
    (config_alone (procs := [p, p]) (i := 0) rfl hw (goto_pcs _ _ _))
  refine ⟨[1, 1] ++ (List.replicate k1 0 ++ (List.replicate k2 1 ++ List.replicate k3 0)), ?_⟩
  unfold TufShared.run at *
  rw [List.foldl_append, h0, List.foldl_append, h1, List.foldl_append, h2, h3, goto_pcs]

/-! ## Concrete cases -/

/-- the repository lists a newer trusted root than the package has; the parser wants a final `}` -/
def exCacheProc (offline : Bool) (root : Bytes) : Proc where
  offline := offline
  mkdir := true
  embedded
    | .trustedRoot => some root
    | .signingConfig => some [123, 99, 125]
  opening _ := .opened
  canPut _ _ := true
  bootstrap := .ok ()
  refresh := true
  targetInfo
    | .trustedRoot => .ok (some ⟨0⟩)
    | .signingConfig => .ok (some ⟨1⟩)
  fits i b := b = if i.id = 0 then [123, 50, 125] else [123, 99, 125]
  download i := .ok (if i.id = 0 then [123, 50, 125] else [123, 99, 125])
  parse _ b := if b.length = 3 ∧ 0 ∉ b then .ok () else .error .valueError

/-- what the repository lists -/
def exListed : Artifact → Bytes
  | .trustedRoot => [123, 50, 125]
  | .signingConfig => [123, 99, 125]

/-- what the package has -/
def exPackaged : Artifact → Bytes
  | .trustedRoot => [123, 49, 125]
  | .signingConfig => [123, 99, 125]

theorem exWorks : Works (exCacheProc false [123, 49, 125]) exPackaged exListed where
  online := rfl
  mkdir := rfl
  embedded a := by cases a <;> decide +kernel
  opening _ := rfl
  canPut _ _ := rfl
  bootstrap := rfl
  refresh := rfl
  targets a := by
    cases a
    · exact ⟨⟨0⟩, rfl, fun b => by simp [exCacheProc, exListed], rfl⟩
    · exact ⟨⟨1⟩, rfl, fun b => by simp [exCacheProc, exListed], rfl⟩
  parseE a := by cases a <;> rfl
  parseD a := by cases a <;> rfl

/-- the race -/
example : ∃ schedule, (TufShared.run [exCacheProc false [123, 49, 125], exCacheProc false [123, 49, 125]] (.begin fun _ => none)
    schedule).pcs 0 = .done [123, 49, 125] [123, 99, 125] :=
  C133_race _ _ _ exWorks _ rfl

/-- the process is healed by an online one -/
example : ∃ k, (TufShared.run [exCacheProc false [123, 49, 125]] (.begin fun _ => some []) (List.replicate k 0)).pcs 0 =
    .done [123, 50, 125] [123, 99, 125] := by
  obtain ⟨k, h, _⟩ := C133_heals [exCacheProc false [123, 49, 125]] 0 _ rfl _ _ exWorks (.begin fun _ => some []) rfl
  exact ⟨k, h⟩

/-- a first run offline -/
example : ∃ k, (TufShared.run [exCacheProc true [123, 49, 125]] (.begin fun _ => none) (List.replicate k 0)).pcs 0 =
    .done [123, 49, 125] [123, 99, 125] :=
  C133_offline_alone [exCacheProc true [123, 49, 125]] 0 _ rfl exPackaged ⟨rfl, fun a => by cases a <;> rfl, fun _ => rfl, fun _ _ => rfl⟩
    rfl (.begin fun _ => none) rfl (fun a => by cases a <;> rfl)

/-- an incomplete file stops offline processes -/
example (schedule : List Nat) (tr sc : Bytes) : (TufShared.run [exCacheProc true [123, 49, 125]] (.begin fun _ => some [123, 49])
    schedule).pcs 0 ≠ .done tr sc :=
  (C133_stuck [exCacheProc true [123, 49, 125]] _ .trustedRoot [123, 49] rfl (by simp [exCacheProc]) (by simp [exCacheProc])
    schedule).2 0 _ tr sc rfl

/-- processes about the same material: the package has what the repository lists, and one of them is offline -/
theorem exSameMaterial : SameMaterial [exCacheProc false [123, 50, 125], exCacheProc true [123, 50, 125]] (fun _ => none) exListed where
  embedded := by
    intro p hp a b _ h
    have : p.embedded a = some (exListed a) := by
      simp only [List.mem_cons, List.not_mem_nil, or_false] at hp
      rcases hp with rfl | rfl <;> cases a <;> decide +kernel
    rw [this] at h
    exact (Option.some.inj h).symm
  listed := by
    intro p hp _ a info b h1 h2
    simp only [List.mem_cons, List.not_mem_nil, or_false] at hp
    rcases hp with rfl | rfl <;> cases a <;> cases h1 <;> simpa [exCacheProc, exListed] using h2
  handed := by
    intro p hp _ a info b h1 h2
    simp only [List.mem_cons, List.not_mem_nil, or_false] at hp
    rcases hp with rfl | rfl <;> cases a <;> cases h1 <;> cases h2 <;> rfl
  readable := by
    intro p hp a b ⟨hl, hb⟩ h
    have h : b.length = 3 ∧ 0 ∉ b := by
      simp only [List.mem_cons, List.not_mem_nil, or_false] at hp
      by_contra hn
      rcases hp with rfl | rfl <;> exact absurd h (by simp only [exCacheProc, if_neg hn]; exact fun h => by cases h)
    apply List.ext_getElem?
    intro k
    cases hk : b[k]? with
    | some x =>
      rcases hb k x hk with rfl | h'
      · exact absurd (List.mem_of_getElem? hk) h.2
      · exact h'.symm
    | none =>
      have := List.getElem?_eq_none_iff.1 hk
      rw [h.1] at this
      cases a <;> exact (List.getElem?_eq_none this).symm

/-- two processes: while the first writes, the second reads an incomplete file and fails; the first succeeds -/
def exTogether : TufShared.State :=
  TufShared.run [exCacheProc false [123, 50, 125], exCacheProc true [123, 50, 125]] (.begin fun _ => none)
    ([0, 0, 0, 0, 1, 1] ++ [1, 1, 1, 1, 1, 1, 1, 1, 1, 1, 1, 1] ++ List.replicate 30 0)

example : exTogether.pcs 0 = .done [123, 50, 125] [123, 99, 125] ∧ exTogether.pcs 1 = .failed .valueError := by
  decide +kernel

/-- and what the theorem says about any schedule -/
example (schedule : List Nat) (tr sc : Bytes)
    (h : (TufShared.run [exCacheProc false [123, 50, 125], exCacheProc true [123, 50, 125]] (.begin fun _ => none) schedule).pcs 0 =
      .done tr sc) : tr = [123, 50, 125] ∧ sc = [123, 99, 125] :=
  (C133_same_material_partial _ _ _ exSameMaterial schedule 0 _ rfl tr sc h).1 rfl

/-- an offline process whose cache holds an empty trusted root, which its parser refuses -/
example : ∃ k, ∀ schedule, (TufShared.run [exCacheProc true [123, 50, 125]]
    (TufShared.run [exCacheProc true [123, 50, 125]] (.begin fun a => if a = .trustedRoot then some [] else none)
      (List.replicate k 0)) schedule).pcs 0 = .failed .valueError :=
  C133_offline_fails _ 0 (exCacheProc true [123, 50, 125]) rfl
    (fun a => ((exCacheProc true [123, 50, 125]).embedded a).getD [])
    ⟨rfl, fun a => by cases a <;> rfl, fun a => by cases a <;> rfl, fun a n => by cases a <;> rfl⟩ rfl _ rfl .valueError (.inl (by decide))

end Sigstore.Props
