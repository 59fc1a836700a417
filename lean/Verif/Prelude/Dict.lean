import Verif.Prelude.Basic

/-!
# Python dictionaries with insertion order
-/

namespace Sigstore

/-- A Python `dict`: keys in insertion order.  Values built by `Dict.set` never repeat a key. -/
abbrev Dict (κ ν : Type) := List (κ × ν)

namespace Dict

variable {κ ν : Type} [DecidableEq κ]

/-- `d.get(k)` -/
def get? (d : Dict κ ν) (k : κ) : Option ν :=
  match d with
  | [] => none
  | (k', v) :: rest => if k' = k then some v else get? rest k

/-- `d[k] = v`: an existing key keeps its position -/
def set (d : Dict κ ν) (k : κ) (v : ν) : Dict κ ν :=
  match d with
  | [] => [(k, v)]
  | (k', v') :: rest => if k' = k then (k', v) :: rest else (k', v') :: set rest k v

/-- `list(d.values())` -/
def values (d : Dict κ ν) : List ν := d.map Prod.snd

/-- `list(d)` -/
def keys (d : Dict κ ν) : List κ := d.map Prod.fst

theorem get?_set_self (d : Dict κ ν) (k : κ) (v : ν) : (set d k v).get? k = some v := by
  induction d with
  | nil => simp [set, get?]
  | cons p d ih =>
    obtain ⟨k', v'⟩ := p
    rw [set]
    split
    · rename_i h; rw [get?, if_pos h]
    · rename_i h; rw [get?, if_neg h, ih]

theorem get?_set_ne (d : Dict κ ν) {k k' : κ} (v : ν) (h : k ≠ k') : (set d k v).get? k' = d.get? k' := by
  induction d with
  | nil => simp [set, get?, h]
  | cons p d ih =>
    obtain ⟨k₀, v₀⟩ := p
    rw [set]
    split
    · rename_i h0
      subst h0
      rw [get?, if_neg h, get?, if_neg h]
    · rw [get?, get?, ih]

theorem keys_set (d : Dict κ ν) (k : κ) (v : ν) :
    (set d k v).keys = if k ∈ d.keys then d.keys else d.keys ++ [k] := by
  induction d with
  | nil => simp [set, keys]
  | cons p d ih =>
    obtain ⟨k₀, v₀⟩ := p
    rw [set]
    split
    · rename_i h0
      subst h0
      simp [keys]
    · rename_i h0
      have hne : ¬ k = k₀ := fun h => h0 h.symm
      have e : ∀ w, keys ((k₀, w) :: d) = k₀ :: keys d := fun _ => rfl
      have e' : keys ((k₀, v₀) :: set d k v) = k₀ :: keys (set d k v) := rfl
      rw [e, e', ih]
      by_cases hk : k ∈ keys d
      · rw [if_pos hk, if_pos (List.mem_cons_of_mem _ hk)]
      · rw [if_neg hk, if_neg (by simp [hne, hk])]; rfl

theorem nodup_keys_set (d : Dict κ ν) (k : κ) (v : ν) (h : d.keys.Nodup) : (set d k v).keys.Nodup := by
  rw [keys_set]
  split
  · exact h
  · rename_i hk
    rw [List.nodup_append]
    refine ⟨h, by simp, ?_⟩
    intro a ha b hb
    have : b = k := by simpa using hb
    subst this
    intro e; subst e; exact hk ha

theorem mem_of_get? {d : Dict κ ν} {k : κ} {v : ν} (h : d.get? k = some v) : (k, v) ∈ d := by
  induction d with
  | nil => simp [get?] at h
  | cons p d ih =>
    obtain ⟨k', v'⟩ := p
    rw [get?] at h
    split at h
    · rename_i hk; subst hk; rw [Option.some.inj h]; simp
    · exact List.mem_cons_of_mem _ (ih h)

theorem get?_of_mem {d : Dict κ ν} {k : κ} {v : ν} (hn : d.keys.Nodup) (h : (k, v) ∈ d) :
    d.get? k = some v := by
  induction d with
  | nil => simp at h
  | cons p d ih =>
    obtain ⟨k', v'⟩ := p
    simp only [keys, List.map_cons, List.nodup_cons] at hn
    rcases List.mem_cons.1 h with h | h
    · obtain ⟨rfl, rfl⟩ := Prod.mk.inj h
      rw [get?, if_pos rfl]
    · have hne : k' ≠ k := fun e => hn.1 (by subst e; exact List.mem_map.2 ⟨_, h, rfl⟩)
      rw [get?, if_neg hne, ih hn.2 h]

theorem mem_values_iff {d : Dict κ ν} (hn : d.keys.Nodup) (v : ν) :
    v ∈ d.values ↔ ∃ k, d.get? k = some v := by
  constructor
  · intro h
    obtain ⟨⟨k, v'⟩, hm, rfl⟩ := List.mem_map.1 h
    exact ⟨k, get?_of_mem hn hm⟩
  · rintro ⟨k, h⟩
    exact List.mem_map.2 ⟨(k, v), mem_of_get? h, rfl⟩

theorem get?_eq_none_iff {d : Dict κ ν} {k : κ} : d.get? k = none ↔ k ∉ d.keys := by
  induction d with
  | nil => simp [get?, keys]
  | cons p d ih =>
    obtain ⟨k', v'⟩ := p
    rw [get?]
    simp only [keys, List.map_cons, List.mem_cons, not_or]
    split
    · rename_i h; simp [h]
    · rename_i h
      rw [ih]
      exact ⟨fun h' => ⟨fun e => h e.symm, h'⟩, fun h' => h'.2⟩

end Dict

end Sigstore
