import Verif.Model.Bitmask
import Verif.Lemmas.Pos2ptl
import Verif.Lemmas.Sort
import Mathlib.Data.Nat.Bitwise
import Mathlib.Tactic.NormNum
import Mathlib.Tactic.IntervalCases

namespace Verif.Props
open Verif.Py Verif.Model.Bitmask

/-- The name printed for bit `b`: the name in the last definition of that bit, or
`UNKNOWNb`. -/
inductive Label (defs : List (List Char × ℕ)) (b : ℕ) : List Char → Prop
  | known (pre post : List (List Char × ℕ)) (s : List Char) :
      defs = pre ++ (s, b) :: post → (∀ x ∈ post, x.2 ≠ b) → Label defs b s
  | unknown : (∀ x ∈ defs, x.2 ≠ b) → Label defs b ("UNKNOWN".toList ++ (toString b).toList)

/-- The bit a name stands for: the one in the last definition of that name. -/
def BitOf (defs : List (List Char × ℕ)) (s : List Char) (b : ℕ) : Prop :=
  ∃ pre post, defs = pre ++ (s, b) :: post ∧ ∀ x ∈ post, x.1 ≠ s

namespace Bitmask

theorem init_snoc (defs : List (PyStr × ℕ)) (x : PyStr × ℕ) :
    init (defs ++ [x]) = ((init defs).set (.name x.1) (mkBit x.1 x.2)).set (.num x.2) (mkBit x.1 x.2) := by
  simp [init]

theorem get_num_snoc (defs : List (PyStr × ℕ)) (x : PyStr × ℕ) (b : ℕ) :
    (init (defs ++ [x])).get? (.num b) = if x.2 = b then some (mkBit x.1 x.2) else (init defs).get? (.num b) := by
  rw [init_snoc, Dict.get?_set]
  by_cases h : x.2 = b
  · simp [h]
  · rw [if_neg (by simpa using h), if_neg h, Dict.get?_set, if_neg (by simp)]

theorem get_name_snoc (defs : List (PyStr × ℕ)) (x : PyStr × ℕ) (s : PyStr) :
    (init (defs ++ [x])).get? (.name s) = if x.1 = s then some (mkBit x.1 x.2) else (init defs).get? (.name s) := by
  rw [init_snoc, Dict.get?_set, if_neg (by simp), Dict.get?_set]
  by_cases h : x.1 = s <;> simp [h]

theorem get_num_none (defs : List (PyStr × ℕ)) (b : ℕ) :
    (init defs).get? (.num b) = none ↔ ∀ x ∈ defs, x.2 ≠ b := by
  induction defs using List.reverseRecOn with
  | nil => simp [init, Dict.get?]
  | append_singleton defs x ih =>
    rw [get_num_snoc]
    by_cases h : x.2 = b
    · rw [if_pos h]; simp only [reduceCtorEq, false_iff, not_forall]; exact ⟨x, by simp, fun h' => h' h⟩
    · rw [if_neg h, ih]
      simp only [List.mem_append, List.mem_singleton]
      constructor
      · rintro h' y (hy | rfl)
        · exact h' y hy
        · exact h
      · intro h' y hy; exact h' y (Or.inl hy)

theorem get_num_some (defs : List (PyStr × ℕ)) (b : ℕ) (bit : Bit) :
    (init defs).get? (.num b) = some bit ↔
      ∃ pre post s, defs = pre ++ (s, b) :: post ∧ (∀ x ∈ post, x.2 ≠ b) ∧ bit = mkBit s b := by
  induction defs using List.reverseRecOn with
  | nil => simp [init, Dict.get?]
  | append_singleton defs x ih =>
    rw [get_num_snoc]
    by_cases h : x.2 = b
    · subst h
      rw [if_pos rfl]
      constructor
      · intro h; injection h with h
        exact ⟨defs, [], x.1, rfl, by simp, h.symm⟩
      · rintro ⟨pre, post, s, e, hp, rfl⟩
        rcases List.eq_nil_or_concat post with rfl | ⟨post, y, rfl⟩
        · have := List.append_inj' e rfl
          simp only [List.cons.injEq, and_true] at this
          rw [this.2]
        · exfalso
          have e' : defs ++ [x] = (pre ++ (s, x.2) :: post) ++ [y] := by rw [e]; simp
          have := List.append_inj' e' rfl
          simp only [List.cons.injEq, and_true] at this
          exact hp y (by simp) (by rw [this.2])
    · rw [if_neg h, ih]
      constructor
      · rintro ⟨pre, post, s, rfl, hp, rfl⟩
        refine ⟨pre, post ++ [x], s, by simp, ?_, rfl⟩
        intro y hy
        rcases List.mem_append.1 hy with hy | hy
        · exact hp y hy
        · rw [List.mem_singleton.1 hy]; exact h
      · rintro ⟨pre, post, s, e, hp, rfl⟩
        rcases List.eq_nil_or_concat post with rfl | ⟨post, y, rfl⟩
        · exfalso
          have := List.append_inj' e rfl
          simp only [List.cons.injEq, and_true] at this
          rw [this.2] at h
          exact h rfl
        · have e' : defs ++ [x] = (pre ++ (s, b) :: post) ++ [y] := by rw [e]; simp
          have := List.append_inj' e' rfl
          exact ⟨pre, post, s, this.1, fun z hz => hp z (by simp [hz]), rfl⟩

theorem get_name_none (defs : List (PyStr × ℕ)) (s : PyStr) :
    (init defs).get? (.name s) = none ↔ ∀ x ∈ defs, x.1 ≠ s := by
  induction defs using List.reverseRecOn with
  | nil => simp [init, Dict.get?]
  | append_singleton defs x ih =>
    rw [get_name_snoc]
    by_cases h : x.1 = s
    · rw [if_pos h]; simp only [reduceCtorEq, false_iff, not_forall]; exact ⟨x, by simp, fun h' => h' h⟩
    · rw [if_neg h, ih]
      simp only [List.mem_append, List.mem_singleton]
      constructor
      · rintro h' y (hy | rfl)
        · exact h' y hy
        · exact h
      · intro h' y hy; exact h' y (Or.inl hy)

theorem get_name_some (defs : List (PyStr × ℕ)) (s : PyStr) (bit : Bit) :
    (init defs).get? (.name s) = some bit ↔ ∃ b, BitOf defs s b ∧ bit = mkBit s b := by
  unfold BitOf
  induction defs using List.reverseRecOn with
  | nil => simp [init, Dict.get?]
  | append_singleton defs x ih =>
    rw [get_name_snoc]
    by_cases h : x.1 = s
    · subst h
      rw [if_pos rfl]
      constructor
      · intro h; injection h with h
        exact ⟨x.2, ⟨defs, [], rfl, by simp⟩, h.symm⟩
      · rintro ⟨b, ⟨pre, post, e, hp⟩, rfl⟩
        rcases List.eq_nil_or_concat post with rfl | ⟨post, y, rfl⟩
        · have := List.append_inj' e rfl
          simp only [List.cons.injEq, and_true] at this
          rw [this.2]
        · exfalso
          have e' : defs ++ [x] = (pre ++ (x.1, b) :: post) ++ [y] := by rw [e]; simp
          have := List.append_inj' e' rfl
          simp only [List.cons.injEq, and_true] at this
          exact hp y (by simp) (by rw [this.2])
    · rw [if_neg h, ih]
      constructor
      · rintro ⟨b, ⟨pre, post, rfl, hp⟩, rfl⟩
        refine ⟨b, ⟨pre, post ++ [x], by simp, ?_⟩, rfl⟩
        intro y hy
        rcases List.mem_append.1 hy with hy | hy
        · exact hp y hy
        · rw [List.mem_singleton.1 hy]; exact h
      · rintro ⟨b, ⟨pre, post, e, hp⟩, rfl⟩
        rcases List.eq_nil_or_concat post with rfl | ⟨post, y, rfl⟩
        · exfalso
          have := List.append_inj' e rfl
          simp only [List.cons.injEq, and_true] at this
          rw [this.2] at h
          exact h rfl
        · have e' : defs ++ [x] = (pre ++ (s, b) :: post) ++ [y] := by rw [e]; simp
          have := List.append_inj' e' rfl
          exact ⟨b, ⟨pre, post, this.1, fun z hz => hp z (by simp [hz])⟩, rfl⟩

/-- What `names` prints for one bit. -/
def lab (d : BitMask) (b : ℕ) : PyStr := match d.get? (.num b) with
  | some bit => bit.name
  | none => "UNKNOWN".toList ++ (toString b).toList

theorem lab_label (defs : List (PyStr × ℕ)) (b : ℕ) : Label defs b (lab (init defs) b) := by
  unfold lab
  cases h : (init defs).get? (.num b) with
  | none => exact .unknown ((get_num_none defs b).1 h)
  | some bit =>
    obtain ⟨pre, post, s, e, hp, rfl⟩ := (get_num_some defs b bit).1 h
    exact .known pre post s e hp

theorem and_two_pow (b m : ℕ) : (2 ^ b &&& m) ≠ 0 ↔ m.testBit b = true := by
  rw [Nat.and_comm, Nat.and_two_pow]
  cases m.testBit b <;> simp

/-- The loop lists the set bits from `b` on. -/
theorem namesLoop_spec (d : BitMask) (m b : ℕ) :
    ∃ l : List ℕ, l.Pairwise (· < ·) ∧ (∀ k, k ∈ l ↔ b ≤ k ∧ m.testBit k = true) ∧
      namesLoop d m b = l.map (lab d) := by
  induction hn : m - b using Nat.strong_induction_on generalizing b with
  | _ n ih =>
    rw [namesLoop]
    have hcast : ((2 : ℤ) ^ b ≤ (m : ℤ)) ↔ 2 ^ b ≤ m := by exact_mod_cast Iff.rfl
    by_cases h : (2 : ℤ) ^ b ≤ (m : ℤ)
    · rw [dif_pos h]
      have h2 : b < m := lt_of_lt_of_le Nat.lt_two_pow_self (hcast.1 h)
      obtain ⟨l, hl, hm, e⟩ := ih (m - (b + 1)) (by omega) (b + 1) rfl
      rw [e]
      simp only [Int.toNat_natCast]
      by_cases hb : m.testBit b = true
      · rw [if_pos ((and_two_pow b m).2 hb)]
        refine ⟨b :: l, ?_, ?_, rfl⟩
        · rw [List.pairwise_cons]
          exact ⟨fun k hk => by have := ((hm k).1 hk).1; omega, hl⟩
        · intro k
          rw [List.mem_cons, hm]
          constructor
          · rintro (rfl | ⟨h1, h2⟩)
            · exact ⟨le_refl _, hb⟩
            · exact ⟨by omega, h2⟩
          · rintro ⟨h1, h2⟩
            rcases Nat.eq_or_lt_of_le h1 with h | h
            · exact Or.inl h.symm
            · exact Or.inr ⟨h, h2⟩
      · rw [if_neg (by rw [and_two_pow]; exact hb)]
        refine ⟨l, hl, ?_, rfl⟩
        intro k
        rw [hm]
        constructor
        · rintro ⟨h1, h2⟩; exact ⟨by omega, h2⟩
        · rintro ⟨h1, h2⟩
          rcases Nat.eq_or_lt_of_le h1 with h | h
          · subst h; exact absurd h2 hb
          · exact ⟨h, h2⟩
    · rw [dif_neg h]
      refine ⟨[], .nil, ?_, rfl⟩
      intro k
      simp only [List.not_mem_nil, false_iff, not_and]
      intro hk
      rw [hcast, not_le] at h
      have := Nat.testBit_lt_two_pow (lt_of_lt_of_le h (Nat.pow_le_pow_right (by norm_num) hk))
      rw [this]; simp

theorem foldlM_or (d : BitMask) (ps : List PyStr) (m0 : ℕ) (r : ℕ) :
    ps.foldlM (fun (m : ℕ) name => do
      let b ← getBit d (.name name)
      return m ||| b.mask) m0 = .ok r ↔
    ∃ bs : List Bit, List.Forall₂ (fun p b => d.get? (.name p) = some b) ps bs ∧
      r = bs.foldl (fun m b => m ||| b.mask) m0 := by
  induction ps generalizing m0 with
  | nil =>
    constructor
    · intro h; injection h with h; exact ⟨[], .nil, h.symm⟩
    · rintro ⟨bs, h, rfl⟩; cases h; rfl
  | cons p ps ih =>
    rw [List.foldlM_cons]
    simp only [getBit]
    cases h : d.get? (.name p) with
    | none =>
      constructor
      · intro h'; cases h'
      · rintro ⟨bs, h', -⟩; cases h' with
        | cons h1 h2 => rw [h] at h1; cases h1
    | some b =>
      have := ih (m0 ||| b.mask)
      simp only [getBit] at this
      constructor
      · intro h'
        obtain ⟨bs, h1, h2⟩ := this.1 h'
        exact ⟨b :: bs, .cons h h1, h2⟩
      · rintro ⟨bs, h', rfl⟩
        cases h' with
        | cons h1 h2 =>
          rw [h] at h1; injection h1 with h1; subst h1
          exact this.2 ⟨_, h2, rfl⟩

theorem testBit_foldl (bs : List Bit) (m0 k : ℕ) :
    (bs.foldl (fun m b => m ||| b.mask) m0).testBit k = true ↔
      m0.testBit k = true ∨ ∃ b ∈ bs, b.mask.testBit k = true := by
  induction bs generalizing m0 with
  | nil => simp
  | cons b bs ih => simp only [List.foldl_cons, ih, Nat.testBit_or, Bool.or_eq_true]; simp; tauto

theorem foldlM_err (d : BitMask) (ps : List PyStr) (m0 : ℕ) :
    (∃ p ∈ ps, d.get? (.name p) = none) → ps.foldlM (fun (m : ℕ) name => do
      let b ← getBit d (.name name)
      return m ||| b.mask) m0 = .error PyErr.keyError := by
  induction ps generalizing m0 with
  | nil => rintro ⟨p, hp, -⟩; cases hp
  | cons p ps ih =>
    rintro ⟨q, hq, hn⟩
    rw [List.foldlM_cons]
    simp only [getBit]
    cases h : d.get? (.name p) with
    | none => rfl
    | some b =>
      have := ih (m0 ||| b.mask)
      simp only [getBit] at this
      apply this
      rcases List.mem_cons.1 hq with rfl | hq
      · rw [h] at hn; cases hn
      · exact ⟨q, hq, hn⟩

end Bitmask
open Bitmask

/-- C28: the names of a non-negative value are the labels of its set bits, in increasing
bit order. -/
theorem C28_names (defs : List (List Char × ℕ)) (m : ℕ) :
    ∃ l : List ℕ, l.Pairwise (· < ·) ∧ (∀ b, b ∈ l ↔ m.testBit b = true) ∧
      List.Forall₂ (Label defs) l (names (init defs) m) := by
  obtain ⟨l, h1, h2, h3⟩ := namesLoop_spec (init defs) m 0
  refine ⟨l, h1, fun b => by rw [h2]; simp, ?_⟩
  unfold names
  rw [h3, List.forall₂_map_right_iff]
  exact List.forall₂_same.2 (fun b _ => lab_label defs b)

/-- C28: negative values have no names. -/
theorem C28_negative (defs : List (List Char × ℕ)) (m : ℤ) (h : m < 0) : names (init defs) m = [] := by
  unfold names
  rw [namesLoop, dif_neg (by simp; omega)]

/-- C28: `mask("A|B|...")` is the value whose set bits are exactly the bits of the named
flags. -/
theorem C28_mask (defs : List (List Char × ℕ)) (s : List Char)
    (hd : ∀ p ∈ s.splitOn '|', ∃ x ∈ defs, x.1 = p) :
    ∃ m, maskNames (init defs) s = .ok m ∧
      ∀ b, m.testBit b = true ↔ ∃ p ∈ s.splitOn '|', BitOf defs p b := by
  have hall : ∀ ps : List PyStr, (∀ p ∈ ps, ∃ x ∈ defs, x.1 = p) →
      ∃ bs : List Bit, List.Forall₂ (fun p b => (init defs).get? (.name p) = some b) ps bs := by
    intro ps
    induction ps with
    | nil => exact fun _ => ⟨[], .nil⟩
    | cons p ps ih =>
      intro h
      obtain ⟨bs, hbs⟩ := ih (fun q hq => h q (by simp [hq]))
      cases hp : (init defs).get? (.name p) with
      | none =>
        exfalso
        obtain ⟨x, hx, e⟩ := h p (by simp)
        exact (get_name_none defs p).1 hp x hx e
      | some b => exact ⟨b :: bs, .cons hp hbs⟩
  obtain ⟨bs, hbs⟩ := hall _ hd
  refine ⟨_, (foldlM_or (init defs) _ 0 _).2 ⟨bs, hbs, rfl⟩, ?_⟩
  intro k
  rw [testBit_foldl]
  simp only [Nat.zero_testBit, Bool.false_eq_true, false_or]
  clear hd hall
  generalize s.splitOn '|' = ps at hbs
  induction hbs with
  | nil => simp
  | cons h1 h2 ih =>
    rename_i p b ps bs
    obtain ⟨c, hc, rfl⟩ := (get_name_some defs p b).1 h1
    have huniq : ∀ c', BitOf defs p c' → c' = c := by
      intro c' hc'
      have h2 := (get_name_some defs p (mkBit p c')).2 ⟨c', hc', rfl⟩
      rw [h1] at h2
      injection h2 with h2
      simpa [mkBit] using (congrArg Bit.bitnum h2).symm
    simp only [List.mem_cons, exists_eq_or_imp, ih]
    refine or_congr ?_ Iff.rfl
    simp only [mkBit, Nat.testBit_two_pow, decide_eq_true_eq]
    constructor
    · rintro rfl; exact hc
    · intro h; exact (huniq k h).symm

/-- C28: an undefined name raises KeyError. -/
theorem C28_mask_undefined (defs : List (List Char × ℕ)) (s : List Char)
    (h : ∃ p ∈ s.splitOn '|', ∀ x ∈ defs, x.1 ≠ p) : maskNames (init defs) s = .error .keyError := by
  obtain ⟨p, hp, hx⟩ := h
  exact foldlM_err _ _ _ ⟨p, hp, (get_name_none defs p).2 hx⟩

/-- C28: a bit number has value `2^b` when defined, and raises KeyError otherwise. -/
theorem C28_mask_number (defs : List (List Char × ℕ)) (b : ℕ) :
    ((∃ x ∈ defs, x.2 = b) → maskNum (init defs) b = .ok (2 ^ b) ∧
        ∃ s, bitname (init defs) b = .ok s ∧ Label defs b s) ∧
    ((∀ x ∈ defs, x.2 ≠ b) → maskNum (init defs) b = .error .keyError ∧ bitname (init defs) b = .error .keyError) := by
  constructor
  · rintro ⟨x, hx, e⟩
    cases h : (init defs).get? (.num b) with
    | none => exact absurd e ((get_num_none defs b).1 h x hx)
    | some bit =>
      obtain ⟨pre, post, s, e, hp, rfl⟩ := (get_num_some defs b bit).1 h
      unfold maskNum bitname getBit
      rw [h]
      exact ⟨rfl, s, rfl, .known pre post s e hp⟩
  · intro hx
    unfold maskNum bitname getBit
    rw [(get_num_none defs b).2 hx]
    exact ⟨rfl, rfl⟩

/-- C28: `bitnum(name)`. -/
theorem C28_bitnum (defs : List (List Char × ℕ)) (s : List Char) (b : ℕ) :
    bitnum (init defs) s = .ok b ↔ BitOf defs s b := by
  unfold bitnum getBit
  cases h : (init defs).get? (.name s) with
  | none =>
    have := (get_name_none defs s).1 h
    constructor
    · intro h'; cases h'
    · rintro ⟨pre, post, rfl, -⟩
      exact absurd rfl (this (s, b) (by simp))
  | some bit =>
    obtain ⟨c, hc, rfl⟩ := (get_name_some defs s bit).1 h
    constructor
    · intro h'; injection h' with h'
      have : c = b := h'
      rw [← this]; exact hc
    · intro hb
      have h2 := (get_name_some defs s (mkBit s b)).2 ⟨b, hb, rfl⟩
      rw [h] at h2
      injection h2 with h2
      have : c = b := by simpa [mkBit] using congrArg Bit.bitnum h2
      rw [this]; rfl

/-- C28: joining the names of a non-zero value with `|` gives the value back, when all its
bits are defined, names and bits are distinct, and no name contains `|`. -/
theorem C28_roundtrip (defs : List (List Char × ℕ)) (hn : (defs.map Prod.fst).Nodup)
    (hb : (defs.map Prod.snd).Nodup) (hbar : ∀ x ∈ defs, '|' ∉ x.1) (m : ℕ) (hm : m ≠ 0)
    (hdef : ∀ b, m.testBit b = true → ∃ x ∈ defs, x.2 = b) :
    maskNames (init defs) (['|'].intercalate (names (init defs) m)) = .ok m := by
  obtain ⟨l, -, hl, hf⟩ := C28_names defs m
  have hlab : ∀ b s, Label defs b s → m.testBit b = true → (s, b) ∈ defs := by
    intro b s h hbit
    cases h with
    | known pre post s e hp => rw [e]; simp
    | unknown h => obtain ⟨x, hx, e⟩ := hdef b hbit; exact absurd e (h x hx)
  have hall : ∀ (l : List ℕ) (ns : List PyStr), List.Forall₂ (Label defs) l ns →
      (∀ b ∈ l, m.testBit b = true) → (∀ s, s ∈ ns ↔ ∃ b ∈ l, (s, b) ∈ defs) := by
    intro l ns h
    induction h with
    | nil => simp
    | cons h1 h2 ih =>
      rename_i b s bs ns
      intro hbits s'
      have hs := hlab b s h1 (hbits b (by simp))
      simp only [List.mem_cons, exists_eq_or_imp, ih (fun c hc => hbits c (by simp [hc])) s']
      refine or_congr ?_ Iff.rfl
      constructor
      · rintro rfl; exact hs
      · intro h'
        exact congrArg Prod.fst (List.inj_on_of_nodup_map hb h' hs rfl)
  have hmem := hall l _ hf (fun b h => (hl b).1 h)
  have hne : names (init defs) m ≠ [] := by
    intro h
    rw [h] at hf
    cases hf
    apply hm
    apply Nat.zero_of_testBit_eq_false
    intro i
    have := hl i
    simp at this
    exact this
  have hsplit : (['|'].intercalate (names (init defs) m)).splitOn '|' = names (init defs) m := by
    apply List.splitOn_intercalate _ _ hne
    intro s hs
    obtain ⟨b, -, h⟩ := (hmem s).1 hs
    exact hbar _ h
  obtain ⟨m', h1, h2⟩ := C28_mask defs (['|'].intercalate (names (init defs) m)) (by
    rw [hsplit]
    intro s hs
    obtain ⟨b, -, h⟩ := (hmem s).1 hs
    exact ⟨_, h, rfl⟩)
  rw [h1]
  congr 1
  apply Nat.eq_of_testBit_eq
  intro k
  rw [Bool.eq_iff_iff, h2, hsplit]
  constructor
  · rintro ⟨s, hs, pre, post, e, -⟩
    obtain ⟨b, hbl, h⟩ := (hmem s).1 hs
    have hk : (s, k) ∈ defs := by rw [e]; simp
    have : b = k := congrArg Prod.snd (List.inj_on_of_nodup_map hn h hk rfl)
    rw [← this]; exact (hl b).1 hbl
  · intro hk
    obtain ⟨x, hx, rfl⟩ := hdef k hk
    refine ⟨x.1, (hmem x.1).2 ⟨x.2, (hl x.2).2 hk, hx⟩, ?_⟩
    obtain ⟨pre, post, e⟩ := List.append_of_mem hx
    refine ⟨pre, post, e, ?_⟩
    intro y hy h
    rw [e, List.map_append, List.map_cons] at hn
    have := (List.nodup_append.1 hn).2.1
    rw [List.nodup_cons] at this
    exact this.1 (List.mem_map.2 ⟨y, hy, h⟩)

/-- C28 (finding): the value 0 has no names, and its joined names (the empty string) raise
KeyError instead of giving 0 back. -/
theorem C28_zero (defs : List (List Char × ℕ)) (h : ∀ x ∈ defs, x.1 ≠ []) :
    names (init defs) 0 = [] ∧ maskNames (init defs) (['|'].intercalate (names (init defs) 0)) = .error .keyError := by
  have h0 : names (init defs) 0 = [] := by
    unfold names; rw [namesLoop, dif_neg (by simp)]
  refine ⟨h0, ?_⟩
  rw [h0]
  exact C28_mask_undefined defs _ ⟨[], by simp [List.intercalate], h⟩

theorem numKeys_mem (defs : List (List Char × ℕ)) (b : ℕ) : b ∈ numKeys (init defs) ↔ ∃ x ∈ defs, x.2 = b := by
  have : b ∈ numKeys (init defs) ↔ Key.num b ∈ Dict.keys (init defs) := by
    unfold numKeys
    rw [List.mem_filterMap]
    constructor
    · rintro ⟨k, hk, h⟩
      cases k with
      | name s => simp at h
      | num c => simp at h; subst h; exact hk
    · intro h; exact ⟨_, h, rfl⟩
  rw [this, Dict.mem_keys]
  constructor
  · rintro ⟨v, hv⟩
    by_contra hcon
    have := (get_num_none defs b).2 (fun x hx e => hcon ⟨x, hx, e⟩)
    rw [hv] at this; cases this
  · rintro ⟨x, hx, e⟩
    cases h : (init defs).get? (.num b) with
    | none => exact absurd e ((get_num_none defs b).1 h x hx)
    | some v => exact ⟨v, rfl⟩

theorem keys_nodup (defs : List (List Char × ℕ)) : (Dict.keys (init defs)).Nodup := by
  induction defs using List.reverseRecOn with
  | nil => simp [init, Dict.keys]
  | append_singleton defs x ih =>
    rw [init_snoc]
    exact Dict.nodup_keys_set _ _ _ (Dict.nodup_keys_set _ _ _ ih)

/-- C28: `names()` lists the labels of all defined bits in increasing bit order. -/
theorem C28_all_names (defs : List (List Char × ℕ)) :
    ∃ (l : List ℕ) (ns : List (List Char)), l.Pairwise (· < ·) ∧ (∀ b, b ∈ l ↔ ∃ x ∈ defs, x.2 = b) ∧
      namesAll (init defs) = .ok ns ∧ List.Forall₂ (Label defs) l ns := by
  set l := pySort id (numKeys (init defs)) with hl
  have hmem : ∀ b, b ∈ l ↔ ∃ x ∈ defs, x.2 = b := by
    intro b; rw [hl, Verif.Lemmas.mem_pySort, numKeys_mem]
  have hnd : l.Nodup := by
    rw [hl, (Verif.Lemmas.perm_pySort id _).nodup_iff]
    unfold numKeys
    refine List.Nodup.filterMap ?_ (keys_nodup defs)
    intro a b c ha hb
    cases a <;> cases b <;> simp at ha hb
    rw [ha, hb]
  have hsort : l.Pairwise (· ≤ ·) := Verif.Lemmas.sorted_pySort id _
  refine ⟨l, l.map (lab (init defs)), ?_, hmem, ?_, ?_⟩
  · exact (hsort.and hnd).imp (fun ⟨h1, h2⟩ => lt_of_le_of_ne h1 h2)
  · unfold namesAll
    rw [← hl]
    have : ∀ l : List ℕ, (∀ b ∈ l, ∃ x ∈ defs, x.2 = b) →
        l.mapM (fun b => bitname (init defs) b) = .ok (l.map (lab (init defs))) := by
      intro l
      induction l with
      | nil => intro _; rfl
      | cons b l ih =>
        intro h
        rw [List.mapM_cons, ih (fun c hc => h c (by simp [hc]))]
        obtain ⟨x, hx, e⟩ := h b (by simp)
        cases hg : (init defs).get? (.num b) with
        | none => exact absurd e ((get_num_none defs b).1 hg x hx)
        | some v =>
          simp only [bitname, getBit, hg, lab, List.map_cons]
          rfl
    exact this l (fun b hb => (hmem b).1 hb)
  · rw [List.forall₂_map_right_iff]
    exact List.forall₂_same.2 (fun b _ => lab_label defs b)

/-- The definitions used by the fitting code satisfy the round-trip conditions for every
value below 32. -/
example : maskNames (init movemaskDefs) (['|'].intercalate (names (init movemaskDefs) (5 : ℕ))) = .ok 5 := by
  refine C28_roundtrip movemaskDefs (by decide) (by decide) (by decide) 5 (by decide) ?_
  intro b hb
  have hb' : b < 3 := by
    by_contra h
    have := Nat.testBit_lt_two_pow (x := 5) (i := b)
      (lt_of_lt_of_le (by norm_num : 5 < 2 ^ 3) (Nat.pow_le_pow_right (by norm_num) (by omega)))
    rw [this] at hb; cases hb
  interval_cases b
  · exact ⟨("THETA_STUCK".toList, 0), by simp [movemaskDefs], rfl⟩
  · exact absurd hb (by decide)
  · exact ⟨("FAILED_FIT".toList, 2), by simp [movemaskDefs], rfl⟩

end Verif.Props
