import Verif.Props.PerfMoves

/-!
# C85: tags, collision avoidances, acceptance and sequences in `analyze_pos_performance`
-/

namespace Verif.Props
open Verif.Py Verif.Model
open Verif.Model.PerfMoves

namespace Pfl

/-- The separator of names and values. -/
def colon : PyStr := [':', ' ']

/-- The text before the first separator, all of it if there is none. -/
def First (b v : PyStr) : Prop := (b = v ∧ ¬ colon <:+: v) ∨ ∃ u, b = v ++ ':' :: ' ' :: u ∧ ¬ colon <:+: v ++ [':']

/-- The text of a Python list of texts without special characters. -/
def quoted (l : List PyStr) : PyStr := '[' :: [',', ' '].intercalate (l.map fun s => '\'' :: s ++ ['\'']) ++ [']']

/-- A plain name. -/
def Plain (s : PyStr) : Prop := s ≠ [] ∧ ∀ c ∈ s, ¬ Blank c ∧ c ∉ ['\'', '[', ']', ',', '|', ':', ';']

/-- What a token adds to the count of collision avoidances. -/
def Counts (t : PyStr) (k : ℕ) : Prop :=
  (∃ l, t = "collision avoidance: ".toList ++ quoted l ∧ (∀ s ∈ l, Plain s) ∧ k = l.length) ∨
  (t ≠ "collision avoidance".toList ∧ ¬ "collision avoidance: ".toList <+: t ∧ k = 0)

/-! ### Tags -/

theorem join_eq (c : Char) (l : List PyStr) : join c l = joinWith c l := by
  induction l with
  | nil => rfl
  | cons a l ih =>
    cases l with
    | nil => simp [join, joinWith]
    | cons b l => rw [join, ih]; simp [joinWith]

theorem joinWith_snoc (c : Char) (l : List PyStr) (t : PyStr) (hl : l ≠ []) : joinWith c (l ++ [t]) = joinWith c l ++ c :: t := by
  induction l with
  | nil => exact absurd rfl hl
  | cons a l ih =>
    cases l with
    | nil => simp [joinWith]
    | cons b l =>
      rw [show joinWith c (a :: b :: l) = a ++ c :: joinWith c (b :: l) by simp [joinWith], show joinWith c (a :: b :: l ++ [t]) = a ++ c :: joinWith c (b :: l ++ [t]) by simp [joinWith], ih (by simp)]
      simp

theorem tags_plain : ∀ t ∈ tags, '_' ∉ t := by decide

theorem split_tagged (s t : PyStr) (ht : '_' ∉ t) : ∃ l, split ['_'] (s ++ '_' :: t) = l ++ [t] ∧ joinWith '_' l = s := by
  obtain ⟨l, l1, l2, l3⟩ := Sel.exists_join '_' s
  refine ⟨l, ?_, l3⟩
  rw [← l3, ← joinWith_snoc _ _ _ l1, Sel.split_join]
  · simp
  · intro p hp
    rcases List.mem_append.1 hp with hp | hp
    · exact (l2 p hp).1
    · rw [List.mem_singleton] at hp; rw [hp]; exact ht

theorem lastPiece_spec (x : PyStr) : '_' ∉ lastPiece '_' x ∧
    (x = lastPiece '_' x ∨ ∃ s, x = s ++ '_' :: lastPiece '_' x) := by
  obtain ⟨l, l1, l2, l3⟩ := Sel.exists_join '_' x
  have e : split ['_'] x = l := by rw [← l3, Sel.split_join '_' l l1 (fun p hp => (l2 p hp).1)]
  unfold lastPiece
  rw [e]
  rcases List.eq_nil_or_concat l with h | ⟨l', t, h⟩
  · exact absurd h l1
  · rw [List.concat_eq_append] at h
    subst h
    have ht : (l' ++ [t]).getLastD [] = t := by simp
    rw [ht]
    refine ⟨(l2 t (by simp)).1, ?_⟩
    cases l' with
    | nil => left; rw [← l3]; simp [joinWith]
    | cons a l' => right; exact ⟨joinWith '_' (a :: l'), by rw [← l3, joinWith_snoc _ _ _ (by simp)]⟩

theorem lastPiece_tagged (s t : PyStr) (ht : '_' ∉ t) : lastPiece '_' (s ++ '_' :: t) = t := by
  obtain ⟨l, e, -⟩ := split_tagged s t ht
  unfold lastPiece; rw [e]; simp

theorem lastPiece_self (t : PyStr) (ht : '_' ∉ t) : lastPiece '_' t = t := by
  unfold lastPiece; rw [Pfm.split_none ht]; rfl

/-! ### Names and values -/

theorem splitAux_colon (s : PyStr) : ∀ cur : PyStr,
    (¬ colon <:+: s ∧ splitAux colon cur 0 s = [cur.reverse ++ s]) ∨
    ∃ p b, s = p ++ ':' :: ' ' :: b ∧ ¬ colon <:+: p ++ [':'] ∧ splitAux colon cur 0 s = (cur.reverse ++ p) :: splitAux colon [] 0 b := by
  induction s with
  | nil => intro cur; left; exact ⟨by simp [colon], by simp [splitAux]⟩
  | cons c t ih =>
    intro cur
    by_cases hp : colon.isPrefixOf (c :: t) = true
    · right
      have hp' := List.isPrefixOf_iff_prefix.1 hp
      obtain ⟨b, e⟩ := hp'
      refine ⟨[], b, by rw [← e]; rfl, by simp [colon, List.infix_cons_iff], ?_⟩
      rw [splitAux, if_pos hp]
      simp only [colon, List.cons_append, List.nil_append, List.cons.injEq] at e
      obtain ⟨-, e⟩ := e
      rw [← e]
      simp [splitAux, colon]
    · rw [splitAux, if_neg hp]
      rcases ih (c :: cur) with ⟨h1, h2⟩ | ⟨p, b, h1, h2, h3⟩
      · left
        refine ⟨?_, by rw [h2]; simp⟩
        rw [List.infix_cons_iff]
        rintro (h | h)
        · exact hp (List.isPrefixOf_iff_prefix.2 h)
        · exact h1 h
      · right
        refine ⟨c :: p, b, by rw [h1]; rfl, ?_, by rw [h3]; simp⟩
        rw [List.cons_append, List.infix_cons_iff]
        rintro (h | h)
        · refine hp (List.isPrefixOf_iff_prefix.2 (h.trans ?_))
          rw [h1]
          exact ⟨' ' :: b, by simp⟩
        · exact h2 h

theorem split_colon (s : PyStr) :
    (¬ colon <:+: s ∧ split colon s = [s]) ∨
    ∃ p b, s = p ++ ':' :: ' ' :: b ∧ ¬ colon <:+: p ++ [':'] ∧ split colon s = p :: split colon b := by
  have := splitAux_colon s []
  simpa [split] using this

theorem split_head (s : PyStr) : ∃ v, (split colon s)[0]? = some v ∧ (split colon s).headD [] = v ∧ First s v := by
  rcases split_colon s with ⟨h1, h2⟩ | ⟨p, b, h1, h2, h3⟩
  · exact ⟨s, by rw [h2]; rfl, by rw [h2]; rfl, Or.inl ⟨rfl, h1⟩⟩
  · exact ⟨p, by rw [h3]; rfl, by rw [h3]; rfl, Or.inr ⟨b, h1, h2⟩⟩

theorem colon_not {a : PyStr} (h : ':' ∉ a) : ¬ colon <:+: a := fun h' => h (h'.subset (by simp [colon]))

theorem split_key {a b : PyStr} (ha : ':' ∉ a) : split colon (a ++ ':' :: ' ' :: b) = a :: split colon b := by
  rcases split_colon (a ++ ':' :: ' ' :: b) with ⟨h1, h2⟩ | ⟨p, b', h1, h2, h3⟩
  · exact absurd ⟨a, b, by simp [colon]⟩ h1
  · rw [h3]
    rcases List.append_eq_append_iff.1 h1 with ⟨as, e1, e2⟩ | ⟨as, e1, e2⟩
    · cases as with
      | nil =>
        simp only [List.append_nil] at e1
        simp only [List.nil_append, List.cons.injEq, true_and] at e2
        rw [e1, e2]
      | cons x as =>
        simp only [List.cons_append, List.cons.injEq] at e2
        obtain ⟨rfl, e2⟩ := e2
        cases as with
        | nil => simp at e2
        | cons y as =>
          simp only [List.cons_append, List.cons.injEq] at e2
          obtain ⟨rfl, e2⟩ := e2
          exact absurd ⟨a, as ++ [':'], by rw [e1]; simp [colon]⟩ h2
    · cases as with
      | nil =>
        simp only [List.append_nil] at e1
        simp only [List.nil_append, List.cons.injEq, true_and] at e2
        rw [e1, e2]
      | cons x as =>
        simp only [List.cons_append, List.cons.injEq] at e2
        obtain ⟨rfl, e2⟩ := e2
        exact absurd (by rw [e1]; simp) ha

theorem head_key {a w : PyStr} (ha : ':' ∉ a) : (split colon w).headD [] = a ↔ w = a ∨ ∃ b, w = a ++ ':' :: ' ' :: b := by
  constructor
  · intro h
    rcases split_colon w with ⟨h1, h2⟩ | ⟨p, b, h1, h2, h3⟩
    · rw [h2] at h; exact Or.inl h
    · rw [h3] at h
      obtain rfl : p = a := h
      exact Or.inr ⟨b, h1⟩
  · rintro (rfl | ⟨b, rfl⟩)
    · rcases split_colon w with ⟨h1, h2⟩ | ⟨p, b, h1, h2, h3⟩
      · rw [h2]; rfl
      · exact absurd (by rw [h1]; simp) ha
    · rw [split_key ha]; rfl

/-! ### Collision avoidances -/

theorem filter_quoted (l : List PyStr) (h : ∀ s ∈ l, Plain s) :
    (([',', ' '].intercalate (l.map fun s => '\'' :: s ++ ['\''])).filter (· ≠ '\'')).filter (· ≠ ' ') = joinWith ',' l := by
  have hp : ∀ s, Plain s → (s.filter (· ≠ '\'')).filter (· ≠ ' ') = s := by
    intro s hs
    rw [List.filter_filter, List.filter_eq_self]
    intro c hc
    have := hs.2 c hc
    simp only [ne_eq, decide_not, Bool.and_eq_true, Bool.not_eq_true', decide_eq_false_iff_not]
    refine ⟨?_, ?_⟩
    · rintro rfl; exact this.1 (by unfold Blank; decide)
    · rintro rfl; exact this.2 (by simp)
  induction l with
  | nil => rfl
  | cons a l ih =>
    have ha := hp a (h a (by simp))
    cases l with
    | nil =>
      simp only [List.map_cons, List.map_nil, joinWith]
      rw [show [',', ' '].intercalate ['\'' :: a ++ ['\'']] = '\'' :: a ++ ['\''] by simp [List.intercalate]]
      simp only [List.filter_append, List.cons_append, List.filter_cons]
      simpa using ha
    | cons b l =>
      have ih := ih (fun s hs => h s (by simp [hs]))
      have e : [',', ' '].intercalate ((a :: b :: l).map fun s => '\'' :: s ++ ['\'']) =
          '\'' :: (a ++ ('\'' :: ',' :: ' ' :: [',', ' '].intercalate ((b :: l).map fun s => '\'' :: s ++ ['\'']))) := by
        simp [List.intercalate]
      rw [e, show joinWith ',' (a :: b :: l) = a ++ ',' :: joinWith ',' (b :: l) by simp [joinWith], ← ih]
      conv_rhs => rw [← ha]
      simp only [List.filter_cons, List.filter_append]
      simp

theorem mem_quoted {l : List PyStr} {x : Char} (h : x ∈ [',', ' '].intercalate (l.map fun s => '\'' :: s ++ ['\''])) :
    x = ',' ∨ x = ' ' ∨ x = '\'' ∨ ∃ s ∈ l, x ∈ s := by
  induction l with
  | nil => simp [List.intercalate] at h
  | cons a l ih =>
    cases l with
    | nil =>
      simp [List.intercalate] at h
      rcases h with h | h | h
      · exact Or.inr (Or.inr (Or.inl h))
      · exact Or.inr (Or.inr (Or.inr ⟨a, by simp, h⟩))
      · exact Or.inr (Or.inr (Or.inl h))
    | cons b l =>
      have e : [',', ' '].intercalate ((a :: b :: l).map fun s => '\'' :: s ++ ['\'']) =
          '\'' :: (a ++ ('\'' :: ',' :: ' ' :: [',', ' '].intercalate ((b :: l).map fun s => '\'' :: s ++ ['\'']))) := by
        simp [List.intercalate]
      rw [e] at h
      simp only [List.mem_cons, List.mem_append] at h
      rcases h with h | h | h | h | h | h
      · exact Or.inr (Or.inr (Or.inl h))
      · exact Or.inr (Or.inr (Or.inr ⟨a, by simp, h⟩))
      · exact Or.inr (Or.inr (Or.inl h))
      · exact Or.inl h
      · exact Or.inr (Or.inl h)
      · rcases ih h with h | h | h | ⟨s, hs, h⟩
        · exact Or.inl h
        · exact Or.inr (Or.inl h)
        · exact Or.inr (Or.inr (Or.inl h))
        · exact Or.inr (Or.inr (Or.inr ⟨s, by simp [hs], h⟩))

theorem words_plain {a : PyStr} (h : Plain a) : words a = [a] := by
  unfold words
  have : a.splitOnP Selection.isSpace = [a] := by
    apply List.splitOnP_eq_singleton
    intro c hc
    rw [← Bool.not_eq_true, Sel.isSpace_iff]
    exact (h.2 c hc).1
  rw [this]
  simp [h.1]

theorem avoidNames_quoted {l : List PyStr} (h : ∀ s ∈ l, Plain s) : avoidNames (quoted l) = l := by
  have hm : ∀ ch ∈ ['[', ']', ':'], ch ∉ [',', ' '].intercalate (l.map fun s => '\'' :: s ++ ['\'']) := by
    intro ch hch hx
    rcases mem_quoted hx with e | e | e | ⟨s, hs, e⟩
    · rw [e] at hch; revert hch; decide
    · rw [e] at hch; revert hch; decide
    · rw [e] at hch; revert hch; decide
    · exact (h s hs).2 ch e |>.2 (by revert hch; simp; tauto)
  have e1 : stripC '[' (quoted l) = [',', ' '].intercalate (l.map fun s => '\'' :: s ++ ['\'']) ++ [']'] := by
    have := Pfm.stripC_eq (c := '[') (a := ['[']) (m := [',', ' '].intercalate (l.map fun s => '\'' :: s ++ ['\'']) ++ [']']) (b := []) (by simp) (by simp) (by
      intro hx
      rcases List.mem_append.1 hx with hx | hx
      · exact hm '[' (by simp) hx
      · revert hx; decide)
    simpa [quoted] using this
  have e2 := Pfm.stripC_eq (c := ']') (a := []) (m := [',', ' '].intercalate (l.map fun s => '\'' :: s ++ ['\''])) (b := [']']) (by simp) (by simp) (hm ']' (by simp))
  rw [List.nil_append] at e2
  unfold avoidNames
  rw [e1, e2, filter_quoted l h]
  match l, h with
  | [], _ => rfl
  | [a], h =>
    have ha := h a (by simp)
    have hb : '|' ∉ a := fun hc => (ha.2 _ hc).2 (by simp)
    obtain ⟨n1, n2⟩ := Pfm.not_pyIn_bar hb
    have n3 : pyIn [','] a = false := by
      rw [← Bool.not_eq_true, Fvj.infix_of_pyIn]
      intro h'; exact (ha.2 ',' (h'.subset (by simp))).2 (by simp)
    rw [show joinWith ',' [a] = a by simp [joinWith]]
    unfold splitNote
    rw [n1, n2, n3]
    exact words_plain ha
  | a :: b :: l, h =>
    exact Pfm.splitNote_comma (by simp) (fun p hp => ⟨fun hc => ((h p hp).2 _ hc).2 (by simp), fun hc => ((h p hp).2 _ hc).2 (by simp)⟩)

/-! ### Flags -/

/-- A name searched in the text of the flags is found exactly if one of the bits is set whose name contains it. -/
theorem flag_infix (sub : PyStr) (bits : List ℕ) (ch : Char) (hch : ch ∈ sub) (h0 : ch ∉ "UNKNOWN".toList) (hd : ch.isDigit = false)
    (h1 : ' ' ∉ sub) (h2 : '|' ∉ sub)
    (hall : ∀ x ∈ PerfRead.flagDefs, ((pyIn sub x.1 = true) ↔ x.2 ∈ bits) ∧ ((pyIn sub x.1 = true) → PerfRead.ignored.contains x.1 = false))
    (hbits : ∀ b ∈ bits, ∃ x ∈ PerfRead.flagDefs, x.2 = b) (flags : ℤ) :
    pyIn sub (PerfRead.flagString flags) = true ↔ ∃ m : ℕ, flags = m ∧ ∃ b ∈ bits, m.testBit b = true := by
  have hne : sub ≠ [] := by rintro rfl; simp at hch
  unfold PerfRead.flagString
  rw [Fvj.infix_of_pyIn, Pfr.infix_intercalate h1 h2 hne]
  by_cases hneg : flags < 0
  · rw [C28_negative _ _ hneg]
    simp only [List.filter_nil, List.not_mem_nil, false_and, exists_false, false_iff, not_exists, not_and]
    exact fun m e => by omega
  obtain ⟨m, hm⟩ := Int.eq_ofNat_of_zero_le (not_lt.1 hneg)
  rw [hm]
  obtain ⟨l, -, hl, hf⟩ := C28_names PerfRead.flagDefs m
  have hlab : ∀ b s, Label PerfRead.flagDefs b s → (sub <:+: s ↔ b ∈ bits) ∧ (sub <:+: s → PerfRead.ignored.contains s = false) := by
    intro b s h
    cases h with
    | known pre post s e hp =>
      have hmem : (s, b) ∈ PerfRead.flagDefs := by rw [e]; simp
      have := hall _ hmem
      rwa [Fvj.infix_of_pyIn] at this
    | unknown hb =>
      have hno : ¬ sub <:+: "UNKNOWN".toList ++ (toString b).toList := by
        intro h
        have hM : ch ∈ "UNKNOWN".toList ++ (toString b).toList := h.subset hch
        rcases List.mem_append.1 hM with h | h
        · exact h0 h
        · have hd' : (toString b).toList = Nat.toDigits 10 b := by
            show (Nat.repr b).toList = _
            unfold Nat.repr
            simp
          rw [hd'] at h
          have := Nat.isDigit_of_mem_toDigits (b := 10) (by decide) (by decide) h
          rw [hd] at this; cases this
      refine ⟨iff_of_false hno ?_, fun h => absurd h hno⟩
      intro hb'
      obtain ⟨x, hx, e⟩ := hbits b hb'
      exact hb x hx e
  have hex : (∃ p ∈ Bitmask.names (Bitmask.init PerfRead.flagDefs) (m : ℤ), sub <:+: p) ↔ ∃ b ∈ l, b ∈ bits := by
    clear hl
    generalize Bitmask.names (Bitmask.init PerfRead.flagDefs) (m : ℤ) = ns at hf
    induction hf with
    | nil => simp
    | cons h _ ih =>
      simp only [List.mem_cons, exists_eq_or_imp, ih, (hlab _ _ h).1]
  have hin : ∀ p ∈ Bitmask.names (Bitmask.init PerfRead.flagDefs) (m : ℤ), sub <:+: p → PerfRead.ignored.contains p = false := by
    clear hl hex
    generalize Bitmask.names (Bitmask.init PerfRead.flagDefs) (m : ℤ) = ns at hf
    induction hf with
    | nil => simp
    | cons h _ ih =>
      intro p hp
      rcases List.mem_cons.1 hp with rfl | hp
      · exact (hlab _ _ h).2
      · exact ih p hp
  have e1 : (∃ p ∈ (Bitmask.names (Bitmask.init PerfRead.flagDefs) (m : ℤ)).filter (fun n => !PerfRead.ignored.contains n), sub <:+: p) ↔
      ∃ p ∈ Bitmask.names (Bitmask.init PerfRead.flagDefs) (m : ℤ), sub <:+: p := by
    constructor
    · rintro ⟨p, hp, h⟩; exact ⟨p, (List.mem_filter.1 hp).1, h⟩
    · rintro ⟨p, hp, h⟩; exact ⟨p, List.mem_filter.2 ⟨hp, by rw [hin p hp h]; rfl⟩, h⟩
  rw [e1, hex]
  constructor
  · rintro ⟨b, hb, hb'⟩
    exact ⟨m, rfl, b, hb', (hl _).1 hb⟩
  · rintro ⟨m', e, b, hb, h⟩
    obtain rfl : m = m' := by exact_mod_cast e
    exact ⟨b, (hl _).2 h, hb⟩

end Pfl

open Pfl

/-- C85: adding a tag and taking it off gives the name and the tag back, for any name. -/
theorem C85_tags (tag s : PyStr) :
    (tag ∈ tags → addTag tag s = .ok (s ++ '_' :: tag) ∧ isTagged (s ++ '_' :: tag) = true ∧ getTag (s ++ '_' :: tag) = .ok tag ∧
      stripTag (s ++ '_' :: tag) = .ok s) ∧
    (tag ∉ tags → addTag tag s = .error .assertionError) := by
  constructor
  · intro ht
    have hc : tags.contains tag = true := List.contains_iff_mem.2 ht
    have hp := tags_plain tag ht
    have hl := lastPiece_tagged s tag hp
    obtain ⟨l, e1, e2⟩ := split_tagged s tag hp
    refine ⟨by unfold addTag; rw [if_pos hc], by unfold isTagged; rw [hl]; exact hc, by unfold getTag; rw [hl, if_pos hc], ?_⟩
    unfold stripTag
    rw [hl, if_pos hc, e1, List.dropLast_concat, join_eq, e2]
  · intro ht
    unfold addTag
    rw [if_neg (fun h => ht (List.contains_iff_mem.1 h))]

/-- C85: the names that count as tagged are those ending in an underscore and a tag, and the tags themselves; for others taking the tag off
is an error. -/
theorem C85_tagged (x : PyStr) :
    (isTagged x = true ↔ ∃ tag ∈ tags, x = tag ∨ ∃ s, x = s ++ '_' :: tag) ∧
    (isTagged x = false → getTag x = .error .assertionError ∧ stripTag x = .error .assertionError) ∧
    (∀ tag ∈ tags, getTag tag = .ok tag ∧ stripTag tag = .ok []) := by
  refine ⟨?_, ?_, ?_⟩
  · unfold isTagged
    rw [List.contains_iff_mem]
    constructor
    · intro h
      exact ⟨_, h, (lastPiece_spec x).2⟩
    · rintro ⟨tag, ht, rfl | ⟨s, rfl⟩⟩
      · rw [lastPiece_self _ (tags_plain _ ht)]; exact ht
      · rw [lastPiece_tagged _ _ (tags_plain _ ht)]; exact ht
  · intro h
    unfold isTagged at h
    unfold getTag stripTag
    rw [h]
    exact ⟨rfl, rfl⟩
  · intro tag ht
    have hp := tags_plain tag ht
    have hc : tags.contains tag = true := List.contains_iff_mem.2 ht
    unfold getTag stripTag
    rw [lastPiece_self _ hp, if_pos hc, if_pos hc, Pfm.split_none hp]
    exact ⟨rfl, rfl⟩

/-- C85: the number of collision avoidances of a row is the number of names in the lists after `collision avoidance: `. -/
theorem C85_avoidances (note : PyStr) (ks : List ℕ) (h : List.Forall₂ Counts (PerfRead.tokens note) ks) : avoidances note = .ok ks.sum := by
  unfold avoidances
  have hk : ':' ∉ "collision avoidance".toList := by decide
  have hkey : "collision avoidance: ".toList = "collision avoidance".toList ++ [':', ' '] := rfl
  have key : ∀ (ts : List PyStr) (ks : List ℕ), List.Forall₂ Counts ts ks → ∀ c : ℕ,
      ts.foldlM (fun c token => do
        if (split [':', ' '] token).headD [] = "collision avoidance".toList then do
          let s ← item (split [':', ' '] token) 1
          return c + (avoidNames s).length
        else return c) c = Except.ok (c + ks.sum) := by
    intro ts ks h
    induction h with
    | nil => intro c; rfl
    | @cons t k ts ks ht _ ih =>
      intro c
      rw [List.foldlM_cons]
      have e : (do
          if (split [':', ' '] t).headD [] = "collision avoidance".toList then do
            let s ← item (split [':', ' '] t) 1
            return c + (avoidNames s).length
          else return c) = (Except.ok (c + k) : Except PyErr ℕ) := by
        rcases ht with ⟨l, rfl, hl, rfl⟩ | ⟨h1, h2, rfl⟩
        · have es : split [':', ' '] ("collision avoidance: ".toList ++ quoted l) = ["collision avoidance".toList, quoted l] := by
            rw [hkey, List.append_assoc]
            show split colon ("collision avoidance".toList ++ ':' :: ' ' :: quoted l) = _
            rw [split_key hk]
            rcases split_colon (quoted l) with ⟨-, h2⟩ | ⟨p, b, h1, -, -⟩
            · rw [h2]
            · have hc : ':' ∈ quoted l := by rw [h1]; simp
              unfold quoted at hc
              rcases List.mem_append.1 hc with hc | hc
              · rcases List.mem_cons.1 hc with hc | hc
                · exact absurd hc (by decide)
                · rcases mem_quoted hc with e | e | e | ⟨s, hs, e⟩
                  · exact absurd e (by decide)
                  · exact absurd e (by decide)
                  · exact absurd e (by decide)
                  · exact absurd (by simp) ((hl s hs).2 _ e).2
              · exact absurd hc (by decide)
          rw [es, if_pos (by rfl)]
          show Except.ok (c + (avoidNames (quoted l)).length) = _
          rw [avoidNames_quoted hl]
        · rw [if_neg]
          · simp [pure, Except.pure]
          · intro h'
            rcases (head_key hk).1 h' with h' | ⟨b, h'⟩
            · exact h1 h'
            · exact h2 ⟨b, by rw [h', hkey]; simp⟩
      rw [e]
      show List.foldlM _ (c + k) ts = _
      rw [ih (c + k), List.sum_cons, Nat.add_assoc]
  have := key _ _ h 0
  rwa [Nat.zero_add] at this

/-- C85: a row is frozen if bit 20 of its flags is set, and accepted if neither this bit nor bit 25 is set. -/
theorem C85_accepted {ρ : Type} (r : Row ρ) :
    (frozen r = true ↔ ∃ m : ℕ, r.flags = m ∧ m.testBit 20 = true) ∧
    (accepted r = true ↔ ∀ m : ℕ, r.flags = m → m.testBit 20 = false ∧ m.testBit 25 = false) := by
  have h1 : frozen r = true ↔ ∃ m : ℕ, r.flags = m ∧ m.testBit 20 = true := by
    unfold frozen
    rw [flag_infix "FROZEN".toList [20] 'F' (by decide) (by decide) (by decide) (by decide) (by decide) (by decide) (by decide)]
    simp
  have h2 : pyIn "REJECTED".toList (PerfRead.flagString r.flags) = true ↔ ∃ m : ℕ, r.flags = m ∧ m.testBit 25 = true := by
    rw [flag_infix "REJECTED".toList [25] 'R' (by decide) (by decide) (by decide) (by decide) (by decide) (by decide) (by decide)]
    simp
  refine ⟨h1, ?_⟩
  unfold accepted
  rw [Bool.and_eq_true, Bool.not_eq_true', Bool.not_eq_true', ← Bool.not_eq_true, ← Bool.not_eq_true, h1, h2]
  push Not
  constructor
  · rintro ⟨a, b⟩ m e
    exact ⟨by simpa using a m e, by simpa using b m e⟩
  · intro h
    exact ⟨fun m e => by simpa using (h m e).1, fun m e => by simpa using (h m e).2⟩

/-- C85: the sequence of a row is the text after `sequence: ` in the last such token, up to a further colon and space; a token which is
just the word is an error. -/
theorem C85_sequence (note s : PyStr) :
    sequenceName note = .ok s ↔ (∀ t ∈ PerfRead.tokens note, t ≠ "sequence".toList) ∧
      Pfm.LastVal (fun t => "sequence: ".toList <+: t) (fun t v => ∃ b, t = "sequence: ".toList ++ b ∧ First b v) [] (PerfRead.tokens note) s := by
  have hk : ':' ∉ "sequence".toList := by decide
  have hkey : "sequence: ".toList = "sequence".toList ++ [':', ' '] := rfl
  have first_unique : ∀ b v w, First b v → First b w → v = w := by
    have aux : ∀ v w u : PyStr, ¬ colon <:+: v ++ [':'] → ¬ colon <:+: w ++ [':'] → ∀ u', v ++ ':' :: ' ' :: u = w ++ ':' :: ' ' :: u' → v = w := by
      intro v w u hv hw u' e
      rcases List.append_eq_append_iff.1 e with ⟨as, e1, e2⟩ | ⟨as, e1, e2⟩
      · match as, e1, e2 with
        | [], e1, _ => simpa using e1.symm
        | [x], e1, e2 => simp at e2
        | x :: y :: as, e1, e2 =>
          simp only [List.cons_append, List.cons.injEq] at e2
          obtain ⟨rfl, rfl, -⟩ := e2
          exact absurd ⟨v, as ++ [':'], by rw [e1]; simp [colon]⟩ hw
      · match as, e1, e2 with
        | [], e1, _ => simpa using e1
        | [x], e1, e2 => simp at e2
        | x :: y :: as, e1, e2 =>
          simp only [List.cons_append, List.cons.injEq] at e2
          obtain ⟨rfl, rfl, -⟩ := e2
          exact absurd ⟨w, as ++ [':'], by rw [e1]; simp [colon]⟩ hv
    rintro b v w (⟨rfl, h1⟩ | ⟨u, rfl, h1⟩) (⟨e, h2⟩ | ⟨u', e, h2⟩)
    · exact e
    · exact absurd ⟨w, u', by rw [e]; simp [colon]⟩ h1
    · exact absurd ⟨v, u, by rw [← e]; simp [colon]⟩ h2
    · exact aux v w u h1 h2 u' e
  have hval : ∀ b v, item (split colon ("sequence: ".toList ++ b)) 1 = .ok v ↔ First b v := by
    intro b v
    rw [hkey, List.append_assoc]
    show item (split colon ("sequence".toList ++ ':' :: ' ' :: b)) 1 = _ ↔ _
    rw [split_key hk, Pfm.item_iff, List.getElem?_cons_succ]
    obtain ⟨w, e1, -, e2⟩ := split_head b
    rw [e1]
    constructor
    · intro h; injection h with h; rw [← h]; exact e2
    · intro h; rw [first_unique b v w h e2]
  have hstep : ∀ (q t q' : PyStr), (do
        if (split [':', ' '] t).headD [] = "sequence".toList then item (split [':', ' '] t) 1
        else return q : Except PyErr PyStr) = .ok q' ↔
      t ≠ "sequence".toList ∧ (("sequence: ".toList <+: t ∧ ∃ b, t = "sequence: ".toList ++ b ∧ First b q') ∨ (¬ "sequence: ".toList <+: t ∧ q' = q)) := by
    intro q t q'
    by_cases h : (split [':', ' '] t).headD [] = "sequence".toList
    · rw [if_pos h]
      rcases (head_key hk).1 h with rfl | ⟨b, rfl⟩
      · have e : item (split [':', ' '] "sequence".toList) 1 = .error .indexError := rfl
        rw [e]
        simp
      · have e : "sequence".toList ++ ':' :: ' ' :: b = "sequence: ".toList ++ b := by rw [hkey]; simp
        rw [e]
        have := hval b q'
        unfold colon at this
        rw [this]
        constructor
        · intro hb
          refine ⟨?_, Or.inl ⟨⟨b, rfl⟩, b, rfl, hb⟩⟩
          intro h'
          have := congrArg List.length h'
          rw [hkey] at this
          simp at this
        · rintro ⟨-, ⟨-, b', e', hb'⟩ | ⟨h', -⟩⟩
          · rw [List.append_cancel_left e']; exact hb'
          · exact absurd ⟨b, rfl⟩ h'
    · rw [if_neg h]
      have h1 : t ≠ "sequence".toList := fun e => h ((head_key hk).2 (Or.inl e))
      have h2 : ¬ "sequence: ".toList <+: t := by
        rintro ⟨b, e⟩
        exact h ((head_key hk).2 (Or.inr ⟨b, by rw [← e, hkey]; simp⟩))
      constructor
      · intro e
        injection e with e
        exact ⟨h1, Or.inr ⟨h2, e.symm⟩⟩
      · rintro ⟨-, ⟨h', -⟩ | ⟨-, rfl⟩⟩
        · exact absurd h' h2
        · rfl
  unfold sequenceName
  generalize PerfRead.tokens note = ts
  suffices hq : ∀ q0 : PyStr, ts.foldlM (fun q token => do
      if (split [':', ' '] token).headD [] = "sequence".toList then item (split [':', ' '] token) 1
      else return q) q0 = Except.ok s ↔ (∀ t ∈ ts, t ≠ "sequence".toList) ∧
      Pfm.LastVal (fun t => "sequence: ".toList <+: t) (fun t v => ∃ b, t = "sequence: ".toList ++ b ∧ First b v) q0 ts s from hq []
  intro q0
  induction ts generalizing q0 with
  | nil =>
    constructor
    · intro h
      injection h with h
      exact ⟨by simp, Or.inl ⟨by simp, h.symm⟩⟩
    · rintro ⟨-, ⟨-, rfl⟩ | ⟨pre, t, post, e, -⟩⟩
      · rfl
      · simp at e
  | cons t ts ih =>
    rw [List.foldlM_cons, Pfm.bind_ok_iff]
    constructor
    · rintro ⟨q1, h1, h2⟩
      rw [hstep] at h1
      obtain ⟨g1, g2⟩ := (ih q1).1 h2
      refine ⟨fun x hx => by rcases List.mem_cons.1 hx with rfl | hx; exacts [h1.1, g1 x hx], ?_⟩
      rcases g2 with ⟨g2, g3⟩ | ⟨pre, u, post, e, g⟩
      · rcases h1.2 with ⟨a, b⟩ | ⟨a, b⟩
        · exact Or.inr ⟨[], t, ts, rfl, a, g2, by rw [g3]; exact b⟩
        · exact Or.inl ⟨fun x hx => by rcases List.mem_cons.1 hx with rfl | hx; exacts [a, g2 x hx], by rw [g3, b]⟩
      · exact Or.inr ⟨t :: pre, u, post, by rw [e]; rfl, g⟩
    · rintro ⟨h1, h2⟩
      have ht := h1 t (by simp)
      have hts : ∀ x ∈ ts, x ≠ "sequence".toList := fun x hx => h1 x (by simp [hx])
      have hsome : ∃ q1, t ≠ "sequence".toList ∧ (("sequence: ".toList <+: t ∧ ∃ b, t = "sequence: ".toList ++ b ∧ First b q1) ∨ (¬ "sequence: ".toList <+: t ∧ q1 = q0)) := by
        by_cases hp : "sequence: ".toList <+: t
        · obtain ⟨b, e⟩ := hp
          obtain ⟨w, -, -, e2⟩ := split_head b
          exact ⟨w, ht, Or.inl ⟨⟨b, e⟩, b, e.symm, e2⟩⟩
        · exact ⟨q0, ht, Or.inr ⟨hp, rfl⟩⟩
      rcases h2 with ⟨h2, rfl⟩ | ⟨pre, u, post, e, hu, hpost, hv⟩
      · refine ⟨s, (hstep _ _ _).2 ⟨ht, Or.inr ⟨h2 t (by simp), rfl⟩⟩, (ih s).2 ⟨hts, Or.inl ⟨fun x hx => h2 x (by simp [hx]), rfl⟩⟩⟩
      · cases pre with
        | nil =>
          simp only [List.nil_append, List.cons.injEq] at e
          obtain ⟨rfl, rfl⟩ := e
          exact ⟨s, (hstep _ _ _).2 ⟨ht, Or.inl ⟨hu, hv⟩⟩, (ih s).2 ⟨hts, Or.inl ⟨hpost, rfl⟩⟩⟩
        | cons x pre =>
          simp only [List.cons_append, List.cons.injEq] at e
          obtain ⟨q1, h1⟩ := hsome
          exact ⟨q1, (hstep _ _ _).2 h1, (ih q1).2 ⟨hts, Or.inr ⟨pre, u, post, e.2, hu, hpost, hv⟩⟩⟩

/-- **C85** (finding) the word `sequence` alone as a token stops the program. -/
theorem C85_bare_sequence (note : PyStr) (h : "sequence".toList ∈ PerfRead.tokens note) (s : PyStr) : sequenceName note ≠ .ok s := by
  intro h'
  exact ((C85_sequence note s).1 h').1 _ h rfl

/-- **C85** (finding) a name that contains a colon and a space is cut there. -/
theorem C85_cut_name (a b : PyStr) (note : PyStr) (ha : ':' ∉ a) (h : PerfRead.tokens note = ["sequence: ".toList ++ (a ++ ':' :: ' ' :: b)]) :
    sequenceName note = .ok a := by
  rw [C85_sequence, h]
  have hf : First (a ++ ':' :: ' ' :: b) a := by
    refine Or.inr ⟨b, rfl, ?_⟩
    intro hx
    obtain ⟨u, v, e⟩ := hx
    have hb : ' ' ∈ (u ++ colon ++ v) := by simp [colon]
    rcases List.append_eq_append_iff.1 e with ⟨as, e1, e2⟩ | ⟨as, e1, e2⟩
    · exact ha (by rw [e1]; simp [colon])
    · match as, e1, e2 with
      | [], e1, _ => exact ha (by rw [List.append_nil] at e1; rw [← e1]; simp [colon])
      | x :: as, e1, e2 =>
        simp only [List.cons_append, List.cons.injEq] at e2
        obtain ⟨rfl, e2⟩ := e2
        obtain ⟨rfl, -⟩ := List.append_eq_nil_iff.1 e2.symm
        have := congrArg List.getLast? e1
        simp [colon] at this
  refine ⟨?_, Or.inr ⟨[], _, [], rfl, ⟨_, rfl⟩, by simp, _, rfl, hf⟩⟩
  intro t ht
  rw [List.mem_singleton] at ht
  rw [ht]
  intro h'
  have h2 := congrArg List.length h'
  simp at h2

/-- **C85** (finding) the words `collision avoidance` alone as a token stop the program. -/
theorem C85_bare_avoidance (note : PyStr) (h : "collision avoidance".toList ∈ PerfRead.tokens note) (k : ℕ) : avoidances note ≠ .ok k := by
  unfold avoidances
  intro h'
  obtain ⟨pre, post, e⟩ := List.append_of_mem h
  rw [e, List.foldlM_append, Pfm.bind_ok_iff] at h'
  obtain ⟨c, -, h'⟩ := h'
  rw [List.foldlM_cons, Pfm.bind_ok_iff] at h'
  obtain ⟨c', h', -⟩ := h'
  have e1 : split [':', ' '] "collision avoidance".toList = ["collision avoidance".toList] := by decide
  rw [e1, if_pos (by rfl)] at h'
  cases h'

/-- A note with two avoidances. -/
example : avoidances "collision avoidance: ['M1', 'M2']; sequence: grid".toList = .ok 2 ∧ sequenceName "collision avoidance: ['M1', 'M2']; sequence: grid".toList = .ok "grid".toList := by
  decide

end Verif.Props
