import Verif.Spec.SigningConfig
import Mathlib.Data.List.Induction

/-!
# C39: selection of services
-/

namespace Sigstore.Props

open Sigstore.Trust Sigstore.Config Sigstore.Spec

theorem serviceUsable_iff (now : Time) (versions : List Nat) (s : Service) :
    ServiceUsable now versions s ↔ s.majorApiVersion ∈ versions ∧ isTimerangeValid now s.validFor false = true := by
  unfold ServiceUsable isTimerangeValid
  refine and_congr_right fun _ => ?_
  cases s.validFor with
  | none => simp
  | some p =>
    simp only [Option.some.injEq, forall_eq', Bool.false_or]
    by_cases h : now < p.start
    · rw [if_pos h]
      simp only [Bool.false_eq_true, iff_false, not_and]
      intro h'; omega
    · rw [if_neg h]
      have : p.start ≤ now := by omega
      cases p.stop with
      | none => simp [this]
      | some e => simp [this]

instance (now : Time) (versions : List Nat) (s : Service) : Decidable (ServiceUsable now versions s) :=
  decidable_of_iff _ (serviceUsable_iff now versions s).symm

/-- one step of the grouping loop -/
def groupStep (d : Dict Str (List Service)) (s : Service) : Dict Str (List Service) :=
  Dict.set d s.operator ((Dict.get? d s.operator).getD [] ++ [s])

theorem groupByOperator_eq (now : Time) (versions : List Nat) : ∀ (l : List Service) (d : Dict Str (List Service)),
    groupByOperator now versions l d = (l.filter fun s => decide (ServiceUsable now versions s)).foldl groupStep d := by
  intro l
  induction l with
  | nil => intro d; rfl
  | cons s l ih =>
    intro d
    rw [groupByOperator]
    by_cases h1 : s.majorApiVersion ∈ versions
    · rw [if_neg (fun h => h h1)]
      by_cases h2 : isTimerangeValid now s.validFor false = true
      · rw [if_neg (by simp [h2]), ih, List.filter_cons_of_pos (by simpa [serviceUsable_iff] using ⟨h1, h2⟩)]
        rfl
      · rw [if_pos (by simpa using h2), ih, List.filter_cons_of_neg (by simp [serviceUsable_iff, h2])]
    · rw [if_pos h1, ih, List.filter_cons_of_neg (by simp [serviceUsable_iff, h1])]

/-- the contents of the dictionary after grouping the usable services `u` -/
theorem grouped (u : List Service) :
    (∀ o, Dict.get? (u.foldl groupStep []) o =
      if (u.filter fun s => s.operator = o) = [] then none else some (u.filter fun s => s.operator = o)) ∧
    (∀ o, o ∈ Dict.keys (u.foldl groupStep []) ↔ ∃ s ∈ u, s.operator = o) ∧
    (Dict.keys (u.foldl groupStep [])).Pairwise fun a b =>
      ∃ x s y, u = x ++ s :: y ∧ s.operator = a ∧ (∀ t ∈ x, t.operator ≠ b) ∧ a ≠ b := by
  induction u using List.reverseRecOn with
  | nil => simp [Dict.get?, Dict.keys]
  | append_singleton u s ih =>
    obtain ⟨ih1, ih2, ih3⟩ := ih
    rw [List.foldl_append, List.foldl_cons, List.foldl_nil]
    rw [show groupStep (u.foldl groupStep []) s =
      Dict.set (u.foldl groupStep []) s.operator ((Dict.get? (u.foldl groupStep []) s.operator).getD [] ++ [s]) from rfl]
    refine ⟨fun o => ?_, fun o => ?_, ?_⟩
    · by_cases ho : s.operator = o
      · subst ho
        rw [Dict.get?_set_self, ih1, List.filter_append]
        by_cases h : (u.filter fun t => t.operator = s.operator) = []
        · rw [if_pos h, h]; simp
        · rw [if_neg h]; simp
      · rw [Dict.get?_set_ne _ _ ho, ih1, List.filter_append]
        simp [ho]
    · rw [Dict.keys_set]
      split
      · rename_i h
        rw [ih2]
        simp only [List.mem_append, List.mem_singleton]
        constructor
        · rintro ⟨t, h1, h2⟩; exact ⟨t, .inl h1, h2⟩
        · rintro ⟨t, h1 | rfl, h2⟩
          · exact ⟨t, h1, h2⟩
          · rw [h2] at h; exact (ih2 _).1 h
      · simp only [List.mem_append, List.mem_singleton, ih2]
        constructor
        · rintro (⟨t, h1, h2⟩ | rfl)
          · exact ⟨t, .inl h1, h2⟩
          · exact ⟨s, .inr rfl, rfl⟩
        · rintro ⟨t, h1 | rfl, h2⟩
          · exact .inl ⟨t, h1, h2⟩
          · exact .inr h2.symm
    · have mono : (Dict.keys (u.foldl groupStep [])).Pairwise fun a b =>
          ∃ x t y, u ++ [s] = x ++ t :: y ∧ t.operator = a ∧ (∀ r ∈ x, r.operator ≠ b) ∧ a ≠ b :=
        ih3.imp fun {a b} ⟨x, t, y, h, h2⟩ => ⟨x, t, y ++ [s], by rw [h]; simp, h2⟩
      rw [Dict.keys_set]
      split
      · exact mono
      · rename_i h
        rw [List.pairwise_append]
        refine ⟨mono, List.pairwise_singleton _ _, fun a ha b hb => ?_⟩
        rw [List.mem_singleton] at hb
        subst hb
        obtain ⟨t, ht, hta⟩ := (ih2 a).1 ha
        obtain ⟨x, y, rfl⟩ := List.append_of_mem ht
        refine ⟨x, t, y ++ [s], by simp, hta, fun r hr hrs => ?_, fun h' => h (h' ▸ ha)⟩
        exact h ((ih2 _).2 ⟨r, by simp [hr], hrs⟩)

theorem sortByVersion_cons (x : Service) (xs : List Service) :
    sortByVersion (x :: xs) =
      (sortByVersion xs).orderedInsert (fun a b => a.majorApiVersion ≤ b.majorApiVersion) x := rfl

theorem mem_sortByVersion {l : List Service} {s : Service} : s ∈ sortByVersion l ↔ s ∈ l :=
  List.mem_insertionSort _

theorem getLast?_orderedInsert (x : Service) : ∀ (ys : List Service),
    (ys.orderedInsert (fun a b => a.majorApiVersion ≤ b.majorApiVersion) x).getLast? =
      if ∃ y ∈ ys, x.majorApiVersion ≤ y.majorApiVersion then ys.getLast? else some x := by
  intro ys
  induction ys with
  | nil => simp
  | cons y ys ih =>
    rw [List.orderedInsert_cons]
    by_cases h : x.majorApiVersion ≤ y.majorApiVersion
    · rw [if_pos h, if_pos ⟨y, by simp, h⟩, List.getLast?_cons_cons]
    · rw [if_neg h]
      have hne : ys.orderedInsert (fun a b => a.majorApiVersion ≤ b.majorApiVersion) x ≠ [] := by
        cases ys with
        | nil => simp
        | cons a l => rw [List.orderedInsert_cons]; split <;> simp
      obtain ⟨a, l, hl⟩ := List.exists_cons_of_ne_nil hne
      rw [hl, List.getLast?_cons_cons, ← hl, ih]
      by_cases h2 : ∃ z ∈ ys, x.majorApiVersion ≤ z.majorApiVersion
      · rw [if_pos h2, if_pos (by obtain ⟨z, hz, h3⟩ := h2; exact ⟨z, by simp [hz], h3⟩)]
        cases ys with
        | nil => simp at h2
        | cons b m => rw [List.getLast?_cons_cons]
      · rw [if_neg h2, if_neg]
        rintro ⟨z, hz, h3⟩
        rcases List.mem_cons.1 hz with rfl | hz
        · exact h h3
        · exact h2 ⟨z, hz, h3⟩

/-- the last of a stable sort: the last element with the greatest version -/
theorem getLast?_sortByVersion (l : List Service) (s : Service) :
    (sortByVersion l).getLast? = some s ↔
      ∃ a b, l = a ++ s :: b ∧ (∀ t ∈ a, t.majorApiVersion ≤ s.majorApiVersion) ∧
        (∀ t ∈ b, t.majorApiVersion < s.majorApiVersion) := by
  induction l generalizing s with
  | nil => simp [sortByVersion]
  | cons x xs ih =>
    rw [sortByVersion_cons, getLast?_orderedInsert]
    simp only [mem_sortByVersion]
    by_cases h : ∃ y ∈ xs, x.majorApiVersion ≤ y.majorApiVersion
    · rw [if_pos h, ih]
      obtain ⟨y, hy, hxy⟩ := h
      constructor
      · rintro ⟨a, b, rfl, h1, h2⟩
        refine ⟨x :: a, b, rfl, fun t ht => ?_, h2⟩
        rcases List.mem_cons.1 ht with rfl | ht
        · rcases List.mem_append.1 hy with hy | hy
          · have := h1 _ hy; omega
          · rcases List.mem_cons.1 hy with rfl | hy
            · exact hxy
            · have := h2 _ hy; omega
        · exact h1 _ ht
      · rintro ⟨a, b, hab, h1, h2⟩
        cases a with
        | nil =>
          obtain ⟨rfl, rfl⟩ := List.cons.inj hab
          have := h2 _ hy; omega
        | cons a0 a =>
          obtain ⟨rfl, rfl⟩ := List.cons.inj hab
          exact ⟨a, b, rfl, fun t ht => h1 t (by simp [ht]), h2⟩
    · rw [if_neg h]
      constructor
      · intro h'
        cases h'
        refine ⟨[], xs, rfl, by simp, fun t ht => ?_⟩
        by_contra hc
        exact h ⟨t, ht, by omega⟩
      · rintro ⟨a, b, hab, h1, h2⟩
        cases a with
        | nil => rw [(List.cons.inj hab).1]
        | cons a0 a =>
          obtain ⟨rfl, rfl⟩ := List.cons.inj hab
          exact absurd ⟨s, by simp, h1 _ (by simp)⟩ h

theorem filter_split {α : Type} {p : α → Bool} {l a b : List α} {s : α} (h : l.filter p = a ++ s :: b) :
    ∃ a' b', l = a' ++ s :: b' ∧ a'.filter p = a ∧ b'.filter p = b := by
  obtain ⟨l1, l2, rfl, h1, h2⟩ := List.filter_eq_append_iff.1 h
  obtain ⟨l3, l4, rfl, h3, h4, h5⟩ := List.filter_eq_cons_iff.1 h2
  refine ⟨l1 ++ l3, l4, by simp, ?_, h5⟩
  rw [List.filter_append, h1, List.filter_eq_nil_iff.2 h3, List.append_nil]

theorem values_filterMap {κ ν β : Type} [DecidableEq κ] (f : ν → Option β) : ∀ (d : Dict κ ν), d.keys.Nodup →
    d.values.filterMap f = d.keys.filterMap fun k => (d.get? k).bind f := by
  intro d
  induction d with
  | nil => intro _; rfl
  | cons kv d ih =>
    obtain ⟨k, v⟩ := kv
    intro h
    have hk : k ∉ Dict.keys d ∧ (Dict.keys d).Nodup := List.nodup_cons.1 h
    have e1 : Dict.values ((k, v) :: d) = v :: Dict.values d := rfl
    have e2 : Dict.keys ((k, v) :: d) = k :: Dict.keys d := rfl
    have e3 : Dict.get? ((k, v) :: d) k = some v := by rw [Dict.get?, if_pos rfl]
    have e4 : (Dict.keys d).filterMap (fun k' => (Dict.get? ((k, v) :: d) k').bind f) =
        (Dict.keys d).filterMap fun k' => (Dict.get? d k').bind f := by
      apply List.filterMap_congr
      intro k' hk'
      rw [Dict.get?, if_neg (fun h : k = k' => hk.1 (h ▸ hk'))]
    rw [e1, e2, List.filterMap_cons, List.filterMap_cons, e3, e4, ih hk.2]
    rfl

/-- the services the code selects before pruning -/
theorem onePerOperator_eq (u : List Service) :
    onePerOperator (u.foldl groupStep []) =
      (Dict.keys (u.foldl groupStep [])).filterMap fun o =>
        (sortByVersion (u.filter fun s => s.operator = o)).getLast? := by
  obtain ⟨h1, h2, h3⟩ := grouped u
  unfold onePerOperator
  rw [values_filterMap _ _ (h3.imp fun {a b} ⟨_, _, _, _, _, _, h⟩ => h)]
  apply List.filterMap_congr
  intro o ho
  rw [h1, if_neg]
  · rfl
  · obtain ⟨s, hs, h⟩ := (h2 o).1 ho
    intro he
    have := List.filter_eq_nil_iff.1 he s hs
    simp [h] at this

theorem sort_last_operator {u : List Service} {o : Str} {s : Service}
    (h : (sortByVersion (u.filter fun s => s.operator = o)).getLast? = some s) : s.operator = o := by
  have := List.mem_of_getLast? h
  rw [mem_sortByVersion, List.mem_filter] at this
  simpa using this.2

theorem onePerOperator_operators (u : List Service) :
    (onePerOperator (u.foldl groupStep [])).map (·.operator) = Dict.keys (u.foldl groupStep []) := by
  rw [onePerOperator_eq]
  obtain ⟨h1, h2, h3⟩ := grouped u
  have : ∀ ks : List Str, (∀ o ∈ ks, ∃ s ∈ u, s.operator = o) →
      (ks.filterMap fun o => (sortByVersion (u.filter fun s => s.operator = o)).getLast?).map (·.operator) = ks := by
    intro ks
    induction ks with
    | nil => intro _; rfl
    | cons k ks ih =>
      intro h
      rw [List.filterMap_cons]
      cases hl : (sortByVersion (u.filter fun s => s.operator = k)).getLast? with
      | none =>
        exfalso
        rw [List.getLast?_eq_none_iff] at hl
        obtain ⟨s, hs, ho⟩ := h k (by simp)
        have : s ∈ sortByVersion (u.filter fun s => s.operator = k) := by
          rw [mem_sortByVersion, List.mem_filter]; exact ⟨hs, by simpa using ho⟩
        rw [hl] at this; simp at this
      | some s =>
        dsimp only
        rw [List.map_cons, ih fun o ho => h o (by simp [ho]), sort_last_operator hl]
  exact this _ fun o ho => (h2 o).1 ho

theorem select_selected (now : Time) (versions : List Nat) (services : List Service) :
    Selected now versions services (onePerOperator (groupByOperator now versions services [])) := by
  rw [groupByOperator_eq]
  generalize hu : (services.filter fun s => decide (ServiceUsable now versions s)) = u
  obtain ⟨h1, h2, h3⟩ := grouped u
  constructor
  · intro s hs
    rw [onePerOperator_eq, List.mem_filterMap] at hs
    obtain ⟨o, ho, hl⟩ := hs
    have hso := sort_last_operator hl
    obtain ⟨a, b, hab, ha, hb⟩ := (getLast?_sortByVersion _ _).1 hl
    subst hu
    rw [List.filter_filter] at hab
    have hmem : s ∈ services.filter (fun s => decide (s.operator = o) && decide (ServiceUsable now versions s)) := by
      rw [hab]; simp
    obtain ⟨a', b', rfl, ha', hb'⟩ := filter_split hab
    have hus : ServiceUsable now versions s := by
      have := (List.mem_filter.1 hmem).2
      simp only [Bool.and_eq_true, decide_eq_true_eq] at this
      exact this.2
    refine ⟨hus, a', b', rfl, fun t ht h4 h5 => ?_, fun t ht h4 h5 => ?_⟩
    · apply ha
      rw [← ha', List.mem_filter]
      exact ⟨ht, by simp [h4, h5, hso]⟩
    · apply hb
      rw [← hb', List.mem_filter]
      exact ⟨ht, by simp [h4, h5, hso]⟩
  · intro s hs hus
    have : s.operator ∈ Dict.keys (u.foldl groupStep []) := by
      rw [h2]
      exact ⟨s, by rw [← hu, List.mem_filter]; exact ⟨hs, by simpa using hus⟩, rfl⟩
    rw [← onePerOperator_operators, List.mem_map] at this
    exact this
  · have hp := h3
    rw [← onePerOperator_operators, List.pairwise_map] at hp
    refine hp.imp ?_
    rintro a b ⟨x, s, y, hx, hs, hb, hne⟩
    rw [hx] at hu
    obtain ⟨x', y', h4, h5, h6⟩ := filter_split hu
    refine ⟨x', s, y', h4, ?_, hs, fun t ht h7 => hb t ?_, hne⟩
    · have : s ∈ services.filter fun s => decide (ServiceUsable now versions s) := by rw [hu]; simp
      simpa using (List.mem_filter.1 this).2
    · rw [← h5, List.mem_filter]; exact ⟨ht, by simpa using h7⟩

theorem split_compare {α : Type} {a b a' b' : List α} {s s' : α} (h : a ++ s :: b = a' ++ s' :: b') :
    (a = a' ∧ s = s' ∧ b = b') ∨ (s' ∈ b ∧ s ∈ a') ∨ (s ∈ b' ∧ s' ∈ a) := by
  rcases List.append_eq_append_iff.1 h with ⟨c, h1, h2⟩ | ⟨c, h1, h2⟩
  · cases c with
    | nil => simp at h1 h2; exact .inl ⟨h1.symm, h2.1, h2.2⟩
    | cons c0 c =>
      obtain ⟨rfl, rfl⟩ := List.cons.inj h2
      exact .inr (.inl ⟨by simp, by rw [h1]; simp⟩)
  · cases c with
    | nil => simp at h1 h2; exact .inl ⟨h1, h2.1.symm, h2.2.symm⟩
    | cons c0 c =>
      obtain ⟨rfl, rfl⟩ := List.cons.inj h2
      exact .inr (.inr ⟨by simp, by rw [h1]; simp⟩)

theorem preferred_unique {now : Time} {versions : List Nat} {services : List Service} {s t : Service}
    (hs : Preferred now versions services s) (ht : Preferred now versions services t)
    (ho : s.operator = t.operator) : s = t := by
  obtain ⟨us, a, b, h1, h2, h3⟩ := hs
  obtain ⟨ut, a', b', h1', h2', h3'⟩ := ht
  rcases split_compare (h1.symm.trans h1') with h | h | h
  · exact h.2.1
  · have := h3 t h.1 ut ho.symm
    have := h2' s h.2 us ho
    omega
  · have := h3' s h.1 us ho
    have := h2 t h.2 ut ho.symm
    omega

theorem appearsBefore_asymm {now : Time} {versions : List Nat} {services : List Service} {a b : Str}
    (h : AppearsBefore now versions services a b) (h' : AppearsBefore now versions services b a) : False := by
  obtain ⟨x, s, y, h1, h2, h3, h4, h5⟩ := h
  obtain ⟨x', s', y', h1', h2', h3', h4', h5'⟩ := h'
  rcases split_compare (h1.symm.trans h1') with h | h | h
  · exact h5 (by rw [← h3, ← h3', h.2.1])
  · exact h4' s h.2 h2 h3
  · exact h4 s' h.2 h2' h3'

theorem selected_unique {now : Time} {versions : List Nat} {services l l' : List Service}
    (h : Selected now versions services l) (h' : Selected now versions services l') : l = l' := by
  have hsub : ∀ {l l'}, Selected now versions services l → Selected now versions services l' → ∀ s ∈ l, s ∈ l' := by
    intro l l' h h' s hs
    have hp := h.preferred s hs
    have hm : s ∈ services := by obtain ⟨_, a, b, rfl, _⟩ := hp; simp
    obtain ⟨t, ht, hto⟩ := h'.complete s hm hp.1
    rwa [preferred_unique hp (h'.preferred t ht) hto.symm]
  have hnd : ∀ {l}, Selected now versions services l → l.Nodup := fun h =>
    h.ordered.imp fun {a b} hab heq => by
      subst heq
      obtain ⟨_, _, _, _, _, _, _, hne⟩ := hab
      exact hne rfl
  have hperm : l.Perm l' := (List.perm_ext_iff_of_nodup (hnd h) (hnd h')).2 fun s => ⟨hsub h h' s, hsub h' h s⟩
  exact hperm.eq_of_pairwise (fun a b _ _ hab hba => (appearsBefore_asymm hab hba).elim) h.ordered h'.ordered

theorem selected_iff (now : Time) (versions : List Nat) (services l : List Service) :
    onePerOperator (groupByOperator now versions services []) = l ↔ Selected now versions services l :=
  ⟨fun h => h ▸ select_selected _ _ _, fun h => selected_unique (select_selected _ _ _) h⟩

theorem exactCount_eq (cfg : ServiceConfiguration) (h : cfg.selector = .exact) :
    (if cfg.selector = .exact ∧ cfg.count.getD 0 ≠ 0 then cfg.count.getD 0 else 1) = exactCount cfg := by
  unfold exactCount
  rcases cfg.count with _ | _ | n <;> simp [h]

/-- **C39** For all service lists, supported versions, clocks and selectors: the services returned are the one
preferred service of each operator, in order of appearance: all of them for `ALL` or without configuration, the first
as many as requested for `EXACT`, the first for other selectors. -/
theorem C39_services_iff (now : Time) (services : List Service) (versions : List Nat)
    (config : Option ServiceConfiguration) (r : List Service) :
    getValidServices now services versions config = .ok r ↔
      ∃ l, Selected now versions services l ∧
        ((r = l ∧ ∀ cfg, config = some cfg → cfg.selector = .all) ∨
         (∃ cfg, config = some cfg ∧ cfg.selector = .exact ∧ exactCount cfg ≤ l.length ∧ r = l.take (exactCount cfg)) ∨
         (∃ cfg, config = some cfg ∧ (cfg.selector = .any ∨ cfg.selector = .undefined) ∧ r = l.take 1)) := by
  simp only [← selected_iff, exists_eq_left']
  unfold getValidServices
  cases config with
  | none => simp [eq_comm]
  | some cfg =>
    simp only [Option.some.injEq, forall_eq', exists_eq_left']
    cases hsel : cfg.selector with
    | undefined => simp [eq_comm]
    | all => simp [eq_comm]
    | any => simp [eq_comm]
    | exact =>
      have := exactCount_eq cfg hsel
      rw [hsel] at this
      rw [if_neg (by simp), this]
      simp only [true_and, reduceCtorEq, and_false, false_or, or_false, false_and]
      by_cases hlen : (onePerOperator (groupByOperator now versions services [])).length < exactCount cfg
      · rw [if_pos hlen]
        simp only [reduceCtorEq, false_iff]
        rintro ⟨h, _⟩
        omega
      · rw [if_neg hlen]
        simp only [Except.ok.injEq, Nat.le_of_not_lt hlen, true_and]
        exact eq_comm

/-- **C39** Selection fails exactly when `EXACT` asks for more services than there are operators with a usable one, with
`ValueError`. -/
theorem C39_failure_iff (now : Time) (services : List Service) (versions : List Nat)
    (config : Option ServiceConfiguration) (e : Exc) :
    getValidServices now services versions config = .error e ↔
      e = .valueError ∧ ∃ cfg l, config = some cfg ∧ cfg.selector = .exact ∧ Selected now versions services l ∧
        l.length < exactCount cfg := by
  simp only [← selected_iff, exists_and_left, exists_eq_left']
  unfold getValidServices
  cases config with
  | none => simp
  | some cfg =>
    simp only [Option.some.injEq, exists_eq_left']
    cases hsel : cfg.selector with
    | undefined => simp
    | all => simp
    | any => simp
    | exact =>
      have := exactCount_eq cfg hsel
      rw [hsel] at this
      rw [if_neg (by simp), this]
      by_cases hlen : (onePerOperator (groupByOperator now versions services [])).length < exactCount cfg
      · rw [if_pos (by simpa using hlen)]; simp [hlen, eq_comm]
      · rw [if_neg (by simpa using hlen)]; simp [hlen]

/-- **C39** Consequences: at most one service per operator, each usable; `EXACT` gives exactly the count, other selectors
than `ALL` at most one. -/
theorem C39_services_properties (now : Time) (services : List Service) (versions : List Nat)
    (config : Option ServiceConfiguration) (r : List Service)
    (h : getValidServices now services versions config = .ok r) :
    (∀ s ∈ r, s ∈ services ∧ ServiceUsable now versions s ∧
      ∀ t ∈ services, ServiceUsable now versions t → t.operator = s.operator → t.majorApiVersion ≤ s.majorApiVersion) ∧
    (r.map (·.operator)).Nodup ∧
    (∀ cfg, config = some cfg → cfg.selector = .exact → r.length = exactCount cfg) ∧
    (∀ cfg, config = some cfg → cfg.selector = .any → r.length ≤ 1) := by
  obtain ⟨l, hl, hr⟩ := (C39_services_iff _ _ _ _ _).1 h
  have hsub : r.Sublist l := by
    rcases hr with ⟨rfl, _⟩ | ⟨cfg, _, _, _, rfl⟩ | ⟨cfg, _, _, rfl⟩
    · exact List.Sublist.refl _
    · exact List.take_sublist _ _
    · exact List.take_sublist _ _
  refine ⟨fun s hs => ?_, ?_, ?_, ?_⟩
  · obtain ⟨us, a, b, rfl, h2, h3⟩ := hl.preferred s (hsub.subset hs)
    refine ⟨by simp, us, fun t ht ut ho => ?_⟩
    rcases List.mem_append.1 ht with ht | ht
    · exact h2 t ht ut ho
    · rcases List.mem_cons.1 ht with rfl | ht
      · exact le_refl _
      · exact (h3 t ht ut ho).le
  · have : (l.map (·.operator)).Nodup := List.pairwise_map.2
      (hl.ordered.imp fun {a b} ⟨_, _, _, _, _, _, _, hne⟩ => hne)
    exact this.sublist (hsub.map _)
  · intro cfg hc hsel
    rcases hr with ⟨_, h2⟩ | ⟨cfg', h1, h2, h3, rfl⟩ | ⟨cfg', h1, h2, _⟩
    · exact absurd ((h2 cfg hc).symm.trans hsel) (by decide)
    · rw [hc] at h1; cases h1
      rw [List.length_take, Nat.min_eq_left h3]
    · rw [hc] at h1; cases h1
      rw [hsel] at h2; simp at h2
  · intro cfg hc hsel
    rcases hr with ⟨_, h2⟩ | ⟨cfg', h1, h2, h3, rfl⟩ | ⟨cfg', h1, h2, rfl⟩
    · exact absurd ((h2 cfg hc).symm.trans hsel) (by decide)
    · rw [hc] at h1; cases h1
      rw [hsel] at h2; simp at h2
    · rw [List.length_take]; exact Nat.min_le_left _ _

/-! ## Signing configs and contexts -/

/-- the Rekor major versions asked for -/
def tlogVersions (forced : Option Nat) : List Nat :=
  match forced with
  | none => [1, 2]
  | some v => [v]

theorem getValidServices_none (now : Time) (services : List Service) (versions : List Nat) :
    ∃ l, getValidServices now services versions none = .ok l := ⟨_, rfl⟩

/-- **C65** A signing config is accepted exactly if its media type is known, both selections succeed, and it has a usable
log and a usable certificate authority. -/
theorem C65_signing_config_iff (now : Time) (m : SigningConfigMsg) (forced : Option Nat) (c : SigningConfig) :
    SigningConfig.init now m forced = .ok c ↔
      m.mediaType = "application/vnd.dev.sigstore.signingconfig.v0.2+json".toList ∧
      getValidServices now m.rekorTlogUrls (tlogVersions forced) m.rekorTlogConfig = .ok c.tlogs ∧ c.tlogs ≠ [] ∧
      getValidServices now m.tsaUrls [1] m.tsaConfig = .ok c.tsas ∧
      getValidServices now m.caUrls [1] none = .ok c.fulcios ∧ c.fulcios ≠ [] ∧
      getValidServices now m.oidcUrls [1] none = .ok c.oidcs := by
  unfold SigningConfig.init
  rw [show tlogVersionsFor forced = tlogVersions forced by cases forced <;> rfl]
  by_cases hm : m.mediaType = signingConfigMediaType
  · rw [if_neg (fun h => h hm)]
    have hm' : m.mediaType = "application/vnd.dev.sigstore.signingconfig.v0.2+json".toList := hm
    simp only [hm', true_and]
    cases h1 : getValidServices now m.rekorTlogUrls (tlogVersions forced) m.rekorTlogConfig with
    | error e => simp
    | ok tlogs =>
      by_cases h2 : tlogs = []
      · subst h2
        simp only [↓reduceIte, reduceCtorEq, Except.ok.injEq, false_iff, not_and]
        intro h h'
        exact absurd h.symm h'
      · dsimp only
        rw [if_neg h2]
        cases h3 : getValidServices now m.tsaUrls [1] m.tsaConfig with
        | error e => simp
        | ok tsas =>
          cases h4 : getValidServices now m.caUrls [1] none with
          | error e => simp
          | ok fulcios =>
            by_cases h5 : fulcios = []
            · subst h5
              simp only [↓reduceIte, reduceCtorEq, Except.ok.injEq, false_iff, not_and]
              intro _ _ _ h h'
              exact absurd h.symm h'
            · dsimp only
              rw [if_neg h5]
              cases h6 : getValidServices now m.oidcUrls [1] none with
              | error e => simp
              | ok oidcs =>
                obtain ⟨a, b, c, d⟩ := c
                simp only [Except.ok.injEq, SigningConfig.mk.injEq]
                constructor
                · rintro ⟨rfl, rfl, rfl, rfl⟩
                  exact ⟨rfl, h2, rfl, rfl, h5, rfl⟩
                · rintro ⟨rfl, _, rfl, rfl, _, rfl⟩
                  exact ⟨rfl, rfl, rfl, rfl⟩
  · rw [if_pos hm]
    simp only [reduceCtorEq, false_iff]
    exact fun h => hm h.1

/-- a client of the version of the service -/
inductive HandleFor : Service → RekorHandle → Prop
  | v1 (s : Service) (h : s.majorApiVersion = 1) : HandleFor s (.v1 s.url)
  | v2 (s : Service) (h : s.majorApiVersion = 2) : HandleFor s (.v2 s.url)

theorem getTlogs_ok_iff : ∀ (l : List Service) (hs : List RekorHandle),
    getTlogs l = .ok hs ↔ List.Forall₂ HandleFor l hs := by
  intro l
  induction l with
  | nil => intro hs; simp [getTlogs, eq_comm]
  | cons s l ih =>
    intro hs
    rw [getTlogs, List.forall₂_cons_left_iff]
    simp only [← ih]
    by_cases h1 : s.majorApiVersion = 1
    · rw [if_pos h1]
      constructor
      · intro h
        cases hl : getTlogs l with
        | error e => rw [hl] at h; simp at h
        | ok t => rw [hl] at h; simp at h; exact ⟨_, t, .v1 s h1, rfl, h.symm⟩
      · rintro ⟨b, u, hb, hu, rfl⟩
        rw [hu]
        cases hb with
        | v1 => rfl
        | v2 h => omega
    · rw [if_neg h1]
      by_cases h2 : s.majorApiVersion = 2
      · rw [if_pos h2]
        constructor
        · intro h
          cases hl : getTlogs l with
          | error e => rw [hl] at h; simp at h
          | ok t => rw [hl] at h; simp at h; exact ⟨_, t, .v2 s h2, rfl, h.symm⟩
        · rintro ⟨b, u, hb, hu, rfl⟩
          rw [hu]
          cases hb with
          | v1 h => omega
          | v2 => rfl
      · rw [if_neg h2]
        simp only [reduceCtorEq, false_iff]
        rintro ⟨b, u, hb, _⟩
        cases hb <;> omega

theorem getTlogs_error_iff (l : List Service) (e : Exc) :
    getTlogs l = .error e ↔ e = .assertionError ∧ ∃ s ∈ l, s.majorApiVersion ≠ 1 ∧ s.majorApiVersion ≠ 2 := by
  induction l with
  | nil => simp [getTlogs]
  | cons s l ih =>
    rw [getTlogs]
    by_cases h1 : s.majorApiVersion = 1
    · rw [if_pos h1]
      cases hl : getTlogs l with
      | error e' => rw [hl] at ih; simpa [h1] using ih
      | ok t => rw [hl] at ih; simpa [h1] using ih
    · rw [if_neg h1]
      by_cases h2 : s.majorApiVersion = 2
      · rw [if_pos h2]
        cases hl : getTlogs l with
        | error e' => rw [hl] at ih; simpa [h2] using ih
        | ok t => rw [hl] at ih; simpa [h2] using ih
      · rw [if_neg h2]
        simp only [Except.error.injEq]
        constructor
        · rintro rfl; exact ⟨rfl, s, by simp, h1, h2⟩
        · rintro ⟨rfl, _⟩; rfl

/-- **C65** A signing context talks to the first selected certificate authority, to the first selected log with a client
of that log's API version, and to all selected timestamp authorities. -/
theorem C65_context_iff (now : Time) (t : ClientTrustConfig) (r : ContextServices) :
    contextFromTrustConfig now t = .ok r ↔
      t.trustedRootMediaType = "application/vnd.dev.sigstore.trustedroot+json;version=0.1".toList ∧
      ∃ c ca cas log logs hs, SigningConfig.init now t.signingConfig t.forceTlogVersion = .ok c ∧
        c.fulcios = ca :: cas ∧ c.tlogs = log :: logs ∧ r.fulcio = ca.url ∧ HandleFor log r.rekor ∧
        List.Forall₂ HandleFor logs hs ∧ r.tsas = c.tsas.map (·.url) := by
  unfold contextFromTrustConfig
  cases hi : SigningConfig.init now t.signingConfig t.forceTlogVersion with
  | error e => simp
  | ok c =>
    have hc := (C65_signing_config_iff _ _ _ _).1 hi
    obtain ⟨ca, cas, hf⟩ := List.exists_cons_of_ne_nil hc.2.2.2.2.2.1
    obtain ⟨log, logs, ht⟩ := List.exists_cons_of_ne_nil hc.2.2.1
    dsimp only
    rw [SigningConfig.getFulcio, hf]
    dsimp only
    cases hg : getTlogs c.tlogs with
    | error e =>
      simp only [reduceCtorEq, false_iff]
      rintro ⟨_, c', ca', cas', log', logs', hs, h1, _, h2, _, h3, h4, _⟩
      cases h1
      have := (getTlogs_ok_iff c.tlogs (r.rekor :: hs)).2 (by rw [h2]; exact .cons h3 h4)
      rw [hg] at this; simp at this
    | ok hs =>
      have hg' := (getTlogs_ok_iff _ _).1 hg
      rw [ht] at hg'
      cases hg' with
      | cons h1 h2 =>
        rename_i rekor hs'
        dsimp only
        by_cases hm : t.trustedRootMediaType = trustedRootMediaType
        · rw [if_neg (fun h => h hm)]
          obtain ⟨a, b, d⟩ := r
          simp only [Except.ok.injEq, ContextServices.mk.injEq]
          constructor
          · rintro ⟨rfl, rfl, rfl⟩
            exact ⟨hm, c, ca, cas, log, logs, hs', rfl, hf, ht, rfl, h1, h2, rfl⟩
          · rintro ⟨_, c', ca', cas', log', logs', hs'', h3, h4, h5, rfl, h6, _, rfl⟩
            cases h3
            rw [hf] at h4; cases h4
            rw [ht] at h5; cases h5
            refine ⟨rfl, ?_, rfl⟩
            cases h1 <;> cases h6 <;> first | rfl | omega
        · rw [if_pos hm]
          simp only [reduceCtorEq, false_iff]
          exact fun h => hm h.1

theorem config_errors {now : Time} {m : SigningConfigMsg} {forced : Option Nat} {e : Exc}
    (h : SigningConfig.init now m forced = .error e) :
    e = .error ∨ (e = .valueError ∧ ∃ cfg, (m.rekorTlogConfig = some cfg ∨ m.tsaConfig = some cfg) ∧
      cfg.selector = .exact) := by
  unfold SigningConfig.init at h
  split at h
  · cases h; exact .inl rfl
  · split at h
    · rename_i h1
      cases h
      obtain ⟨rfl, cfg, _, h2, h3, _⟩ := (C39_failure_iff _ _ _ _ _).1 h1
      exact .inr ⟨rfl, cfg, .inl h2, h3⟩
    · split at h
      · cases h; exact .inl rfl
      · split at h
        · rename_i h1
          cases h
          obtain ⟨rfl, cfg, _, h2, h3, _⟩ := (C39_failure_iff _ _ _ _ _).1 h1
          exact .inr ⟨rfl, cfg, .inr h2, h3⟩
        · split at h
          · rename_i h1; cases h1
          · split at h
            · cases h; exact .inl rfl
            · split at h
              · rename_i h1; cases h1
              · cases h

/-- **C65** Creating a context fails only with `Error`; with `ValueError`, if an `EXACT` selection cannot be met; or, if a
Rekor version other than 1 and 2 is forced, with `AssertionError`. -/
theorem C65_context_errors (now : Time) (t : ClientTrustConfig) (e : Exc)
    (h : contextFromTrustConfig now t = .error e) :
    e = .error ∨
    (e = .valueError ∧ ∃ cfg, (t.signingConfig.rekorTlogConfig = some cfg ∨ t.signingConfig.tsaConfig = some cfg) ∧
      cfg.selector = .exact) ∨
    (e = .assertionError ∧ ∃ v, t.forceTlogVersion = some v ∧ v ≠ 1 ∧ v ≠ 2) := by
  unfold contextFromTrustConfig at h
  split at h
  · rename_i h1
    cases h
    rcases config_errors h1 with h2 | h2
    · exact .inl h2
    · exact .inr (.inl h2)
  · rename_i c hi
    have hc := (C65_signing_config_iff _ _ _ _).1 hi
    obtain ⟨ca, cas, hf⟩ := List.exists_cons_of_ne_nil hc.2.2.2.2.2.1
    rw [SigningConfig.getFulcio, hf] at h
    dsimp only at h
    split at h
    · rename_i h1
      cases h
      obtain ⟨rfl, s, hs, h2, h3⟩ := (getTlogs_error_iff _ _).1 h1
      have hv := ((C39_services_properties _ _ _ _ _ hc.2.1).1 s hs).2.1.1
      refine .inr (.inr ⟨rfl, ?_⟩)
      cases ht : t.forceTlogVersion with
      | none =>
        rw [ht] at hv
        have hv : s.majorApiVersion ∈ [1, 2] := hv
        simp at hv
        omega
      | some v =>
        rw [ht] at hv
        have hv : s.majorApiVersion ∈ [v] := hv
        simp only [List.mem_singleton] at hv
        exact ⟨v, rfl, hv ▸ h2, hv ▸ h3⟩
    · rename_i h1
      have := (getTlogs_ok_iff _ _).1 h1
      cases hl : c.tlogs with
      | nil => exact absurd hl hc.2.2.1
      | cons a b => rw [hl] at this; cases this
    · split at h
      · cases h; exact .inl rfl
      · cases h

/-- two operators; the first has a newer, an expired and an unsupported service -/
def exServices : List Service :=
  [⟨"a1".toList, 1, some ⟨0, none⟩, "a".toList⟩, ⟨"a2".toList, 2, some ⟨0, some 50⟩, "a".toList⟩,
   ⟨"b1".toList, 1, some ⟨10, some 90⟩, "b".toList⟩, ⟨"a3".toList, 3, none, "a".toList⟩,
   ⟨"a1'".toList, 1, some ⟨0, none⟩, "a".toList⟩]

example : getValidServices 20 exServices [1, 2] none =
    .ok [⟨"a2".toList, 2, some ⟨0, some 50⟩, "a".toList⟩, ⟨"b1".toList, 1, some ⟨10, some 90⟩, "b".toList⟩] := by decide

example : getValidServices 60 exServices [1, 2] (some ⟨.exact, some 1⟩) =
    .ok [⟨"a1'".toList, 1, some ⟨0, none⟩, "a".toList⟩] := by decide

example : getValidServices 60 exServices [1, 2] (some ⟨.exact, some 3⟩) = .error .valueError := by decide

/-- a complete signing config -/
def exConfigMsg : SigningConfigMsg :=
  { mediaType := signingConfigMediaType, caUrls := [⟨"ca".toList, 1, none, "c".toList⟩], oidcUrls := [],
    rekorTlogUrls := exServices, rekorTlogConfig := some ⟨.any, none⟩,
    tsaUrls := [⟨"tsa".toList, 1, none, "d".toList⟩], tsaConfig := some ⟨.exact, some 1⟩ }

example : contextFromTrustConfig 20 ⟨trustedRootMediaType, exConfigMsg, none⟩ =
    .ok ⟨"ca".toList, .v2 "a2".toList, ["tsa".toList]⟩ := by decide

/-- the last case of `C65_context_errors` occurs -/
example : contextFromTrustConfig 20 ⟨trustedRootMediaType, exConfigMsg, some 3⟩ = .error .assertionError := by decide

end Sigstore.Props
