import Verif.Model.Hexrot
import Verif.Props.Selection

namespace Verif.Props
open Verif.Py Verif.Model.Hexrot

/-- C59: the FOCUS text of six comma separated fields gives the sixth one divided by 3600 (when it
is the text of a number, else ValueError). -/
theorem C59_text (parse : PyStr → Option ℝ) (header : Dict PyStr Val) (f : List PyStr) (hf : f.length = 6)
    (hc : ∀ p ∈ f, ',' ∉ p) (h : header.get? "FOCUS".toList = some (.str (joinWith ',' f))) :
    (∀ r, f[5]?.bind parse = some r → readHexrotDeg parse header = .ok (r / 3600)) ∧
    (f[5]?.bind parse = none → readHexrotDeg parse header = .error .valueError) := by
  have hs := Sel.split_join ',' f (by rintro rfl; cases hf) hc
  have h5 : f[5]? = some (f[5]'(by omega)) := List.getElem?_eq_getElem (by omega)
  unfold readHexrotDeg
  rw [h]
  simp only [params, hs, List.length_map, hf, List.getElem?_map, h5, Option.map_some, toFloat, Option.bind_some]
  constructor
  · intro r hr; rw [hr]; rfl
  · intro hr; rw [hr]; rfl

/-- C59: a 6-tuple gives its last element divided by 3600. -/
theorem C59_tuple (parse : PyStr → Option ℝ) (header : Dict PyStr Val) (a b c d e : Item) (r : ℝ)
    (h : header.get? "FOCUS".toList = some (.tuple [a, b, c, d, e, .num r])) :
    readHexrotDeg parse header = .ok (r / 3600) := by
  unfold readHexrotDeg
  rw [h]
  simp [params, toFloat]

/-- C59: a wrong number of fields, and anything that is neither a text nor a tuple, is a ValueError;
a missing key a KeyError. -/
theorem C59_errors (parse : PyStr → Option ℝ) (header : Dict PyStr Val) :
    (header.get? "FOCUS".toList = none → readHexrotDeg parse header = .error .keyError) ∧
    (header.get? "FOCUS".toList = some .other → readHexrotDeg parse header = .error .valueError) ∧
    (∀ l, l.length ≠ 6 → header.get? "FOCUS".toList = some (.tuple l) → readHexrotDeg parse header = .error .valueError) ∧
    (∀ f : List PyStr, f ≠ [] → f.length ≠ 6 → (∀ p ∈ f, ',' ∉ p) → header.get? "FOCUS".toList = some (.str (joinWith ',' f)) →
      readHexrotDeg parse header = .error .valueError) := by
  unfold readHexrotDeg
  refine ⟨?_, ?_, ?_, ?_⟩
  · intro h; rw [h]
  · intro h; rw [h]; rfl
  · intro l hl h
    rw [h]
    simp only [params]
    rw [if_pos hl]
  · intro f h0 hl hc h
    rw [h]
    simp only [params, Sel.split_join ',' f h0 hc]
    rw [if_pos (by simpa using hl)]

/-- C59: no other value than the sixth field / 3600 is ever returned. -/
theorem C59_only (parse : PyStr → Option ℝ) (header : Dict PyStr Val) (v : ℝ) (h : readHexrotDeg parse header = .ok v) :
    ∃ r, v = r / 3600 ∧
      ((∃ l, header.get? "FOCUS".toList = some (.tuple l) ∧ l.length = 6 ∧
          (l[5]? = some (.num r) ∨ ∃ s, l[5]? = some (.str s) ∧ parse s = some r)) ∨
       ∃ f : List PyStr, header.get? "FOCUS".toList = some (.str (joinWith ',' f)) ∧ f.length = 6 ∧ (∀ p ∈ f, ',' ∉ p) ∧
          f[5]?.bind parse = some r) := by
  unfold readHexrotDeg at h
  split at h
  · cases h
  · rename_i v0 hv0
    rw [hv0]
    cases v0 with
    | other => cases h
    | tuple l =>
      simp only [params] at h
      split_ifs at h with h6
      split at h
      · cases h
      · rename_i x hx
        cases x with
        | other => cases h
        | num r =>
          simp only [toFloat] at h
          injection h with h
          exact ⟨r, h.symm, Or.inl ⟨l, rfl, not_not.1 h6, Or.inl hx⟩⟩
        | str s =>
          simp only [toFloat] at h
          cases hp : parse s with
          | none => rw [hp] at h; cases h
          | some r =>
            rw [hp] at h
            injection h with h
            exact ⟨r, h.symm, Or.inl ⟨l, rfl, not_not.1 h6, Or.inr ⟨s, hx, hp⟩⟩⟩
    | str s =>
      obtain ⟨f, f0, f1, rfl⟩ := Sel.exists_join ',' s
      have hs := Sel.split_join ',' f f0 (fun p hp => (f1 p hp).1)
      simp only [params, hs, List.length_map] at h
      split_ifs at h with h6
      have h6' := not_not.1 h6
      have h5 : f[5]? = some (f[5]'(by omega)) := List.getElem?_eq_getElem (by omega)
      simp only [List.getElem?_map, h5, Option.map_some, toFloat] at h
      cases hp : parse (f[5]'(by omega)) with
      | none => rw [hp] at h; cases h
      | some r =>
        rw [hp] at h
        injection h with h
        exact ⟨r, h.symm, Or.inr ⟨f, rfl, h6', fun p hp => (f1 p hp).1, by rw [h5]; exact hp⟩⟩

example : (Dict.get? ([("FOCUS".toList, .str "1,2,3,4,5,-36".toList)] : Dict PyStr Val) "FOCUS".toList) =
    some (.str (joinWith ',' ["1".toList, "2".toList, "3".toList, "4".toList, "5".toList, "-36".toList])) := rfl

end Verif.Props
