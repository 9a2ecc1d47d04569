import Mathlib.Data.List.Basic

/-!
# Python dictionaries as association lists in insertion order
-/

namespace Verif.Py

abbrev Dict (κ ν : Type*) := List (κ × ν)

namespace Dict
variable {κ ν : Type*} [DecidableEq κ]

/-- `d[k] = v`: replaces the value of an existing key in place, else appends. -/
def set : Dict κ ν → κ → ν → Dict κ ν
  | [], k, v => [(k, v)]
  | (k', v') :: t, k, v => if k' = k then (k, v) :: t else (k', v') :: set t k v

/-- `d.get(k)`. -/
def get? : Dict κ ν → κ → Option ν
  | [], _ => none
  | (k', v') :: t, k => if k' = k then some v' else get? t k

/-- `d.keys()`. -/
def keys (d : Dict κ ν) : List κ := d.map Prod.fst

theorem get?_set (d : Dict κ ν) (k k' : κ) (v : ν) :
    (d.set k v).get? k' = if k = k' then some v else d.get? k' := by
  induction d with
  | nil => rfl
  | cons p t ih =>
    obtain ⟨a, b⟩ := p
    simp only [set]
    split_ifs with h1 h2 h2
    · subst h1; simp [get?, h2]
    · subst h1; simp [get?, h2]
    · simp only [get?, ih, if_pos h2]
      rw [if_neg (by rw [← h2]; exact h1)]
    · simp only [get?, ih, if_neg h2]

theorem get?_set_self (d : Dict κ ν) (k : κ) (v : ν) : (d.set k v).get? k = some v := by
  rw [get?_set, if_pos rfl]

theorem get?_set_ne (d : Dict κ ν) {k k' : κ} (v : ν) (h : k ≠ k') : (d.set k v).get? k' = d.get? k' := by
  rw [get?_set, if_neg h]

theorem mem_keys (d : Dict κ ν) (k : κ) : k ∈ keys d ↔ ∃ v, d.get? k = some v := by
  induction d with
  | nil => simp [keys, get?]
  | cons p t ih =>
    obtain ⟨a, b⟩ := p
    by_cases h : a = k
    · subst h; simp [keys, get?]
    · simp only [keys, List.map_cons, List.mem_cons, get?, if_neg h]
      rw [← ih]
      simp only [keys]
      constructor
      · rintro (h' | h')
        · exact absurd h'.symm h
        · exact h'
      · exact Or.inr

theorem mem_keys_set (d : Dict κ ν) (k k' : κ) (v : ν) : k' ∈ keys (d.set k v) ↔ k' = k ∨ k' ∈ keys d := by
  rw [mem_keys, mem_keys, get?_set]
  by_cases h : k = k'
  · simp [h]
  · rw [if_neg h]
    constructor
    · exact Or.inr
    · rintro (h' | h')
      · exact absurd h'.symm h
      · exact h'

theorem nodup_keys_set (d : Dict κ ν) (k : κ) (v : ν) (h : (keys d).Nodup) : (keys (d.set k v)).Nodup := by
  induction d with
  | nil => simp [set, keys]
  | cons p t ih =>
    obtain ⟨a, b⟩ := p
    simp only [keys, List.map_cons, List.nodup_cons] at h
    simp only [set]
    split_ifs with h1
    · subst h1; simpa [keys] using h
    · simp only [keys, List.map_cons, List.nodup_cons]
      refine ⟨?_, ih h.2⟩
      intro hm
      rcases (mem_keys_set t k a v).1 hm with h' | h'
      · exact h1 h'
      · exact h.1 h'

end Dict
end Verif.Py
