import Verif.Model.PetalTest
import Verif.Props.FpMetrology

/-!
# C109: metrology of the petals tested on the ground
-/

namespace Verif.Props.PetalTest
open Verif.Py Verif.Model.PetalTest Verif.Model.FpMetrology
open Verif.Model.Ptl2fp (V3 ptl2fp)
open Verif.Props.FpMetrology

variable {π : Type}

/-! ### What is expected -/

/-- The spots of a petal that are kept. -/
noncomputable def kept (petal : ℤ) (ok : ℤ → Bool) (raw : List (Spot π)) : List (Spot π) :=
  raw.filter fun s => decide (s.petal = petal ∧ ok s.dloc = true ∧ 1 < Real.sqrt (s.ptl 0 ^ 2 + s.ptl 1 ^ 2))

/-- The device locations of petal 0 that are kept. -/
def positive (d : ℤ) : Bool := decide (0 < d)

/-- Position of a spot in the file written. -/
structure SpotRow (al : Model.Ptl2fp.Dict) (s : Spot π) (r : Row (Extra π)) : Prop where
  ploc : r.ploc = 0
  dloc : r.dloc = some s.dloc
  loc : r.loc = some s.dloc
  ptl : r.ptl = s.ptl
  pin : PinOf s.pin r.pin
  fp : ptl2fp al 0 s.ptl = .ok r.fp
  rest : r.rest.rest = s.rest

/-- The last entry of petal 0 at a location in the table of positioners. -/
def Last0 (table : List Entry) (d : ℤ) (e : Entry) : Prop :=
  (table.filter fun e => decide (e.petal = ['0'] ∧ e.dloc = d)).getLast? = some e

/-- The table of positioners has no entry of petal 0 at a location. -/
def None0 (table : List Entry) (d : ℤ) : Prop := ∀ e ∈ table, e.petal = ['0'] → e.dloc ≠ d

/-- Type, identifier and bus of a location of petal 0. -/
inductive Named0 (table : List Entry) (d : ℤ) : PyStr → PyStr → PyStr → Prop
  | pos (e : Entry) (he : Last0 table d e) (ht : e.type = "POS".toList) (n : ℤ) (hn : int? e.id = some n) :
      Named0 table d "POS".toList ('M' :: pad5 n.toNat) e.bus
  | other (e : Entry) (he : Last0 table d e) (ht : e.type ≠ "POS".toList) (hf : ∀ name, (d, name) ∈ did → e.id = name) :
      Named0 table d e.type e.id e.bus
  | fiducial (hno : None0 table d) (name : PyStr) (hf : (d, name) ∈ did) :
      Named0 table d (if d = 541 ∨ d = 542 then "GIF".toList else "FIF".toList) name "UNKNOWN".toList
  | missing (hno : None0 table d) (hf : ∀ name, (d, name) ∉ did) : Named0 table d "UNKNOWN".toList "UNKNOWN".toList "UNKNOWN".toList

/-! ### Lemmas -/

theorem base_spots (al : Model.Ptl2fp.Dict) (petal : ℤ) (ok : ℤ → Bool) (raw : List (Spot π)) (t : List (Row (Extra π)))
    (h : base al ((raw.filter fun s => decide (s.petal = petal) && ok s.dloc).map toRaw) = .ok t) :
    List.Forall₂ (SpotRow al) (kept petal ok raw) t := by
  have h1 := C79_base al _ t h
  rw [List.filter_map, List.filter_filter] at h1
  have e : (raw.filter fun a => ((fun q : Raw (Extra π) => decide (q.ploc < 10 ∧ 1 < Real.sqrt (q.ptl 0 ^ 2 + q.ptl 1 ^ 2))) ∘ toRaw) a &&
      (decide (a.petal = petal) && ok a.dloc)) = kept petal ok raw := by
    unfold kept
    apply List.filter_congr
    intro s _
    rw [Bool.eq_iff_iff]
    simp [toRaw]
    constructor
    · rintro ⟨a, b, c⟩; exact ⟨b, c, of_decide_eq_true a⟩
    · rintro ⟨b, c, a⟩; exact ⟨decide_eq_true a, b, c⟩
  rw [e] at h1
  rw [List.forall₂_map_left_iff] at h1
  refine h1.imp ?_
  rintro s r ⟨a1, a2, a3, a4, a5, a6, a7, a8⟩
  refine ⟨a1, a2, ?_, a5, a6, a7, by rw [a4]; rfl⟩
  rw [a8]
  simp [toRaw]

theorem entryOf_last (ids : List Entry) (d : Option ℤ) : entryOf ids d = (ids.filter fun e => decide (some e.dloc = d)).getLast? := by
  unfold entryOf
  rw [← List.head?_filter, List.filter_reverse, List.head?_reverse]

theorem entryOf0 (table : List Entry) (d : ℤ) (hd : 0 ≤ d) :
    entryOf (table.filter fun e => decide (0 ≤ e.dloc ∧ e.petal = ['0'])) (some d) =
      (table.filter fun e => decide (e.petal = ['0'] ∧ e.dloc = d)).getLast? := by
  rw [entryOf_last, List.filter_filter]
  congr 1
  apply List.filter_congr
  intro e _
  rw [Bool.eq_iff_iff]
  simp only [Bool.and_eq_true, decide_eq_true_eq, Option.some.injEq]
  constructor
  · rintro ⟨a, -, b⟩; exact ⟨b, a⟩
  · rintro ⟨b, a⟩; exact ⟨a, by omega, b⟩

theorem entryOf0_none (table : List Entry) (d : ℤ) (hd : 0 ≤ d) :
    entryOf (table.filter fun e => decide (0 ≤ e.dloc ∧ e.petal = ['0'])) (some d) = none ↔ None0 table d := by
  rw [entryOf0 table d hd, List.getLast?_eq_none_iff, List.filter_eq_nil_iff]
  unfold None0
  constructor
  · intro h e he h1 h2
    exact h e he (by simp [h1, h2])
  · intro h e he hc
    obtain ⟨h1, h2⟩ := of_decide_eq_true hc
    exact h e he h1 h2

/-- What one fiducial does to a row. -/
def fix1 (p : ℤ × PyStr) (r : Row (Extra π)) : Row (Extra π) :=
  if r.dloc = some p.1 ∧ r.rest.type = unknown then setIds r (fidType p.1) p.2 r.rest.bus else r

theorem fidType_ne (l : ℤ) : fidType l ≠ unknown := by
  unfold fidType
  split_ifs <;> decide

theorem fid_one (rows : List (Row (Extra π))) (hsame : ∀ r ∈ rows, ∀ s ∈ rows, r.dloc = s.dloc → r.rest.type = s.rest.type ∧ r.rest.id = s.rest.id)
    (p : ℤ × PyStr) (out : List (Row (Extra π))) :
    fidOne rows p = .ok out ↔ (∃ r ∈ rows, r.dloc = some p.1 ∧ (r.rest.type = unknown ∨ r.rest.id = p.2)) ∧ out = rows.map (fix1 p) := by
  unfold fidOne
  obtain ⟨F, hF⟩ : ∃ F, (rows.find? fun r => decide (r.dloc = some p.1)) = F := ⟨_, rfl⟩
  rw [hF]
  rcases F with _ | r
  · rw [List.find?_eq_none] at hF
    constructor
    · intro h; cases h
    · rintro ⟨⟨r, hr, h1, -⟩, -⟩
      exact absurd h1 (by simpa using hF r hr)
  · have hr : r ∈ rows := List.mem_of_find?_eq_some hF
    have hd : r.dloc = some p.1 := by simpa using List.find?_some hF
    dsimp only
    have hall : ∀ s ∈ rows, s.dloc = some p.1 → s.rest.type = r.rest.type ∧ s.rest.id = r.rest.id :=
      fun s hs e => hsame s hs r hr (e.trans hd.symm)
    by_cases hu : r.rest.type = unknown
    · rw [if_pos hu]
      have e : (rows.map fun r => if r.dloc = some p.1 then setIds r (fidType p.1) p.2 r.rest.bus else r) = rows.map (fix1 p) := by
        apply List.map_congr_left
        intro s hs
        unfold fix1
        by_cases h : s.dloc = some p.1
        · rw [if_pos h, if_pos ⟨h, (hall s hs h).1.trans hu⟩]
        · rw [if_neg h, if_neg (fun c => h c.1)]
      rw [e]
      constructor
      · intro h; exact ⟨⟨r, hr, hd, Or.inl hu⟩, (Except.ok.inj h).symm⟩
      · rintro ⟨-, rfl⟩; rfl
    · rw [if_neg hu]
      have e : rows.map (fix1 p) = rows := by
        refine (List.map_congr_left ?_).trans (List.map_id _)
        intro s hs
        unfold fix1
        rw [if_neg]
        · rfl
        · rintro ⟨h1, h2⟩
          exact hu ((hall s hs h1).1.symm.trans h2)
      rw [e]
      split_ifs with hi
      · constructor
        · intro h; exact ⟨⟨r, hr, hd, Or.inr hi.symm⟩, (Except.ok.inj h).symm⟩
        · rintro ⟨-, rfl⟩; rfl
      · constructor
        · intro h; cases h
        · rintro ⟨⟨s, hs, h1, h2⟩, -⟩
          rcases h2 with h2 | h2
          · exact absurd ((hall s hs h1).1.symm.trans h2) hu
          · exact absurd (h2.symm.trans (hall s hs h1).2) hi

theorem fix1_dloc (p : ℤ × PyStr) (r : Row (Extra π)) : (fix1 p r).dloc = r.dloc := by
  unfold fix1 setIds
  split_ifs <;> rfl

theorem fix1_off (p : ℤ × PyStr) (r : Row (Extra π)) (h : r.dloc ≠ some p.1) : fix1 p r = r := by
  unfold fix1
  rw [if_neg (fun c => h c.1)]

theorem fid_fold (ds : List (ℤ × PyStr)) (hnd : (ds.map Prod.fst).Nodup) : ∀ (rows out : List (Row (Extra π))),
    (∀ r ∈ rows, ∀ s ∈ rows, r.dloc = s.dloc → r.rest.type = s.rest.type ∧ r.rest.id = s.rest.id) →
    (ds.foldlM fidOne rows = .ok out ↔ (∀ p ∈ ds, ∃ r ∈ rows, r.dloc = some p.1 ∧ (r.rest.type = unknown ∨ r.rest.id = p.2)) ∧
      out = rows.map fun r => ds.foldl (fun r p => fix1 p r) r) := by
  induction ds with
  | nil =>
    intro rows out _
    constructor
    · intro h
      refine ⟨by simp, ?_⟩
      have := Except.ok.inj h
      rw [← this]
      simp
    · rintro ⟨-, rfl⟩
      show Except.ok rows = _
      simp
  | cons p t ih =>
    intro rows out hsame
    rw [List.map_cons, List.nodup_cons] at hnd
    have hsame' : ∀ r ∈ rows.map (fix1 p), ∀ s ∈ rows.map (fix1 p), r.dloc = s.dloc → r.rest.type = s.rest.type ∧ r.rest.id = s.rest.id := by
      intro r hr s hs e
      obtain ⟨r', hr', rfl⟩ := List.mem_map.1 hr
      obtain ⟨s', hs', rfl⟩ := List.mem_map.1 hs
      rw [fix1_dloc, fix1_dloc] at e
      obtain ⟨h1, h2⟩ := hsame r' hr' s' hs' e
      unfold fix1 setIds
      rw [e, h1]
      split_ifs
      · exact ⟨rfl, rfl⟩
      · exact ⟨h1, h2⟩
    rw [List.foldlM_cons]
    have hex : ∀ q ∈ t, (∃ r ∈ rows.map (fix1 p), r.dloc = some q.1 ∧ (r.rest.type = unknown ∨ r.rest.id = q.2)) ↔
        ∃ r ∈ rows, r.dloc = some q.1 ∧ (r.rest.type = unknown ∨ r.rest.id = q.2) := by
      intro q hq
      have hne : q.1 ≠ p.1 := fun e => hnd.1 (e ▸ List.mem_map_of_mem (f := Prod.fst) hq)
      constructor
      · rintro ⟨r, hr, h1, h2⟩
        obtain ⟨r', hr', rfl⟩ := List.mem_map.1 hr
        rw [fix1_dloc] at h1
        rw [fix1_off p r' (by rw [h1]; simpa using hne)] at h2
        exact ⟨r', hr', h1, h2⟩
      · rintro ⟨r, hr, h1, h2⟩
        refine ⟨fix1 p r, List.mem_map_of_mem hr, ?_⟩
        rw [fix1_off p r (by rw [h1]; simpa using hne)]
        exact ⟨h1, h2⟩
    constructor
    · intro h
      obtain ⟨m, h1, h2⟩ := bind_inv h
      obtain ⟨h3, rfl⟩ := (fid_one rows hsame p m).1 h1
      obtain ⟨h4, rfl⟩ := (ih hnd.2 _ out hsame').1 h2
      refine ⟨?_, by rw [List.map_map]; rfl⟩
      intro q hq
      rcases List.mem_cons.1 hq with rfl | hq
      · exact h3
      · exact (hex q hq).1 (h4 q hq)
    · rintro ⟨h1, rfl⟩
      rw [(fid_one rows hsame p _).2 ⟨h1 p List.mem_cons_self, rfl⟩]
      show t.foldlM fidOne (rows.map (fix1 p)) = _
      rw [ih hnd.2 _ _ hsame']
      refine ⟨fun q hq => (hex q hq).2 (h1 q (List.mem_cons_of_mem _ hq)), by rw [List.map_map]; rfl⟩

theorem fix_all (ds : List (ℤ × PyStr)) (r : Row (Extra π)) :
    (r.rest.type ≠ unknown → ds.foldl (fun r p => fix1 p r) r = r) ∧
    ((∀ p ∈ ds, r.dloc ≠ some p.1) → ds.foldl (fun r p => fix1 p r) r = r) ∧
    (r.rest.type = unknown → (ds.map Prod.fst).Nodup → ∀ p ∈ ds, r.dloc = some p.1 →
      ds.foldl (fun r p => fix1 p r) r = setIds r (fidType p.1) p.2 r.rest.bus) := by
  have h1 : ∀ (ds : List (ℤ × PyStr)) (r : Row (Extra π)), r.rest.type ≠ unknown → ds.foldl (fun r p => fix1 p r) r = r := by
    intro ds
    induction ds with
    | nil => intro r _; rfl
    | cons p t ih =>
      intro r h
      rw [List.foldl_cons]
      have : fix1 p r = r := by
        unfold fix1
        rw [if_neg (fun c => h c.2)]
      rw [this]
      exact ih r h
  refine ⟨h1 ds r, ?_, ?_⟩
  · induction ds with
    | nil => intro _; rfl
    | cons p t ih =>
      intro h
      rw [List.foldl_cons, fix1_off p r (h p List.mem_cons_self)]
      exact ih fun q hq => h q (List.mem_cons_of_mem _ hq)
  · induction ds with
    | nil => intro _ _ p hp; cases hp
    | cons q t ih =>
      intro hu hnd p hp hd
      rw [List.map_cons, List.nodup_cons] at hnd
      rw [List.foldl_cons]
      rcases List.mem_cons.1 hp with rfl | hp
      · have : fix1 p r = setIds r (fidType p.1) p.2 r.rest.bus := by
          unfold fix1
          rw [if_pos ⟨hd, hu⟩]
        rw [this]
        exact h1 t _ (fidType_ne p.1)
      · have hne : p.1 ≠ q.1 := fun e => hnd.1 (e ▸ List.mem_map_of_mem (f := Prod.fst) hp)
        rw [fix1_off q r (by rw [hd]; simpa using hne)]
        exact ih hu hnd.2 p hp hd

theorem setIds_row (al : Model.Ptl2fp.Dict) {s : Spot π} {r : Row (Extra π)} (h : SpotRow al s r) (a b c : PyStr) :
    SpotRow al s (setIds r a b c) := ⟨h.ploc, h.dloc, h.loc, h.ptl, h.pin, h.fp, h.rest⟩

theorem rename_inv (al : Model.Ptl2fp.Dict) {s : Spot π} {r r' : Row (Extra π)} (h : SpotRow al s r) (hr : rename r = .ok r') :
    SpotRow al s r' ∧ ((r.rest.type = "POS".toList ∧ ∃ n, int? r.rest.id = some n ∧ r'.rest.type = "POS".toList ∧
      r'.rest.id = 'M' :: pad5 n.toNat ∧ r'.rest.bus = r.rest.bus) ∨ (r.rest.type ≠ "POS".toList ∧ r' = r)) := by
  unfold rename at hr
  split_ifs at hr with hp
  · rcases hi : int? r.rest.id with _ | n
    · rw [hi] at hr; cases hr
    · rw [hi] at hr
      obtain rfl := Except.ok.inj hr
      exact ⟨setIds_row al h _ _ _, Or.inl ⟨hp, n, rfl, hp, rfl, rfl⟩⟩
  · obtain rfl := Except.ok.inj hr
    exact ⟨h, Or.inr ⟨hp, rfl⟩⟩

theorem did_nodup : (did.map Prod.fst).Nodup := by decide

theorem give0_row (al : Model.Ptl2fp.Dict) (ids : List Entry) {s : Spot π} {r : Row (Extra π)} (h : SpotRow al s r) :
    SpotRow al s (give0 ids r) ∧ (give0 ids r).rest.type = ((entryOf ids (some s.dloc)).map Entry.type).getD unknown ∧
      (give0 ids r).rest.id = ((entryOf ids (some s.dloc)).map Entry.id).getD unknown ∧
      (give0 ids r).rest.bus = ((entryOf ids (some s.dloc)).map Entry.bus).getD unknown := by
  unfold give0
  rw [h.dloc]
  rcases entryOf ids (some s.dloc) with _ | e
  · exact ⟨setIds_row al h _ _ _, rfl, rfl, rfl⟩
  · exact ⟨setIds_row al h _ _ _, rfl, rfl, rfl⟩

theorem mem_kept {petal : ℤ} {ok : ℤ → Bool} {raw : List (Spot π)} {s : Spot π} : s ∈ kept petal ok raw ↔
    s ∈ raw ∧ s.petal = petal ∧ ok s.dloc = true ∧ 1 < Real.sqrt (s.ptl 0 ^ 2 + s.ptl 1 ^ 2) := by
  unfold kept
  rw [List.mem_filter]
  constructor
  · rintro ⟨h1, h2⟩; exact ⟨h1, of_decide_eq_true h2⟩
  · rintro ⟨h1, h2⟩; exact ⟨h1, decide_eq_true h2⟩

theorem filter0 (raw : List (Spot π)) : (raw.filter fun s => decide (s.petal = 0 ∧ 0 < s.dloc)) =
    raw.filter fun s => decide (s.petal = 0) && positive s.dloc := by
  apply List.filter_congr
  intro s _
  rw [Bool.eq_iff_iff]
  simp [positive]

theorem filter1 (raw : List (Spot π)) : (raw.filter fun s => decide (s.petal = 1)) =
    raw.filter fun s => decide (s.petal = 1) && (fun _ => true) s.dloc := by
  apply List.filter_congr
  intro s _
  rw [Bool.eq_iff_iff]
  simp

/-- The steps of the script for petal 0. -/
theorem petal0_iff (al : Model.Ptl2fp.Dict) (raw : List (Spot π)) (table : List Entry) (hU : ∀ e ∈ table, e.type ≠ "UNKNOWN".toList)
    (out : List (Row (Extra π))) : petal0 al raw table = .ok out ↔
      ∃ t, base al ((raw.filter fun s => decide (s.petal = 0) && positive s.dloc).map toRaw) = .ok t ∧
        (∃ e ∈ table, 0 ≤ e.dloc ∧ e.petal = ['0'] ∧ e.id = "07004".toList) ∧
        (∀ p ∈ did, (∃ s ∈ kept 0 positive raw, s.dloc = p.1) ∧ ∀ e, Last0 table p.1 e → e.id = p.2) ∧
        List.Forall₂ (fun r r' => rename (did.foldl (fun r p => fix1 p r)
          (give0 (table.filter fun e => decide (0 ≤ e.dloc ∧ e.petal = ['0'])) r)) = .ok r') t out := by
  unfold petal0
  rw [filter0]
  dsimp only
  set ids := table.filter fun e => decide (0 ≤ e.dloc ∧ e.petal = ['0']) with hids
  rcases hb : base al ((raw.filter fun s => decide (s.petal = 0) && positive s.dloc).map toRaw) with err | t
  · constructor
    · intro h
      obtain ⟨t, h1, -⟩ := bind_inv h
      rw [hb] at h1
      cases h1
    · rintro ⟨t, h, -⟩
      rw [hb] at h
      cases h
  · have hrows := base_spots al 0 _ raw t hb
    have hsame : ∀ r ∈ t.map (give0 ids), ∀ s ∈ t.map (give0 ids), r.dloc = s.dloc → r.rest.type = s.rest.type ∧ r.rest.id = s.rest.id := by
      intro r hr s hs e
      obtain ⟨r', hr', rfl⟩ := List.mem_map.1 hr
      obtain ⟨s', hs', rfl⟩ := List.mem_map.1 hs
      obtain ⟨q, -, hq⟩ := forall₂_mem' hrows hr'
      obtain ⟨q', -, hq'⟩ := forall₂_mem' hrows hs'
      obtain ⟨a1, a2, a3, -⟩ := give0_row al ids hq
      obtain ⟨b1, b2, b3, -⟩ := give0_row al ids hq'
      rw [a1.dloc, b1.dloc] at e
      rw [a2, a3, b2, b3, Option.some.inj e]
      exact ⟨rfl, rfl⟩
    have hfid : (∀ p ∈ did, ∃ r ∈ t.map (give0 ids), r.dloc = some p.1 ∧ (r.rest.type = unknown ∨ r.rest.id = p.2)) ↔
        ∀ p ∈ did, (∃ s ∈ kept 0 positive raw, s.dloc = p.1) ∧ ∀ e, Last0 table p.1 e → e.id = p.2 := by
      have hpos : ∀ p ∈ did, (0 : ℤ) ≤ p.1 := by decide
      refine forall₂_congr fun p hp => ?_
      constructor
      · rintro ⟨r, hr, h1, h2⟩
        obtain ⟨r', hr', rfl⟩ := List.mem_map.1 hr
        obtain ⟨q, hqk, hq⟩ := forall₂_mem' hrows hr'
        obtain ⟨a1, a2, a3, -⟩ := give0_row al ids hq
        rw [a1.dloc] at h1
        have hd := Option.some.inj h1
        refine ⟨⟨q, hqk, hd⟩, ?_⟩
        intro e he
        rw [hd, hids, entryOf0 table p.1 (hpos p hp)] at a2 a3
        unfold Last0 at he
        rw [he] at a2 a3
        rcases h2 with h2 | h2
        · rw [a2] at h2
          have hm : e ∈ table := (List.mem_filter.1 (List.mem_of_getLast? he)).1
          exact absurd h2 (hU e hm)
        · rw [a3] at h2; exact h2
      · rintro ⟨⟨q, hqk, hd⟩, h⟩
        obtain ⟨r, hr, hq⟩ := forall₂_mem hrows hqk
        obtain ⟨a1, a2, a3, -⟩ := give0_row al ids hq
        refine ⟨give0 ids r, List.mem_map_of_mem hr, by rw [a1.dloc, hd], ?_⟩
        rw [a2, a3, hd, hids, entryOf0 table p.1 (hpos p hp)]
        rcases hL : (table.filter fun e => decide (e.petal = ['0'] ∧ e.dloc = p.1)).getLast? with _ | e
        · left; rw [hL]; rfl
        · right; rw [hL]; exact h e hL
    have hthrow : (ids.all fun e => decide (e.id ≠ "07004".toList)) = true ↔
        ¬ ∃ e ∈ table, 0 ≤ e.dloc ∧ e.petal = ['0'] ∧ e.id = "07004".toList := by
      rw [List.all_eq_true]
      constructor
      · rintro h ⟨e, he, h1, h2, h3⟩
        exact of_decide_eq_true (h e (List.mem_filter.2 ⟨he, by simp [h1, h2]⟩)) h3
      · intro h e he
        obtain ⟨h1, h2⟩ := List.mem_filter.1 he
        obtain ⟨h3, h4⟩ := of_decide_eq_true h2
        exact decide_eq_true fun h5 => h ⟨e, h1, h3, h4, h5⟩
    rw [hb]
    show (if (ids.all fun e => decide (e.id ≠ "07004".toList)) = true then _ else _) = _ ↔ _
    by_cases h7 : ∃ e ∈ table, 0 ≤ e.dloc ∧ e.petal = ['0'] ∧ e.id = "07004".toList
    · rw [if_neg (fun hc => hthrow.1 hc h7)]
      constructor
      · intro h
        obtain ⟨m, h1, h2⟩ := bind_inv h
        obtain ⟨h3, rfl⟩ := (fid_fold did did_nodup _ _ hsame).1 h1
        refine ⟨t, rfl, h7, hfid.1 h3, ?_⟩
        rw [List.map_map, Gpm.mapM_iff, List.forall₂_map_left_iff] at h2
        exact h2
      · rintro ⟨t', ht, -, h3, h4⟩
        obtain rfl := Except.ok.inj ht
        have h1 := (fid_fold did did_nodup _ _ hsame).2 ⟨hfid.2 h3, rfl⟩
        show (did.foldlM fidOne (t.map (give0 ids)) >>= fun s => s.mapM rename) = _
        rw [h1]
        show List.mapM rename _ = _
        rw [List.map_map, Gpm.mapM_iff, List.forall₂_map_left_iff]
        exact h4
    · rw [if_pos (hthrow.2 h7)]
      constructor
      · intro h; cases h
      · rintro ⟨-, -, h, -⟩; exact absurd h h7

/-- **C109** The table of petal 0 has one row for every spot of petal 0 with a positive device location more than 1 mm from the axis, in the order of
the file, with the position given by the alignment of location 0, and type, identifier and bus of the last entry of petal 0 at this location in
the table of positioners: positioners get an `M` and their number on five digits; fiducials without entry get the name known to the
script, and what else has no entry is UNKNOWN. -/
theorem C109_petal0 (al : Model.Ptl2fp.Dict) (raw : List (Spot π)) (table : List Entry) (hU : ∀ e ∈ table, e.type ≠ "UNKNOWN".toList)
    (out : List (Row (Extra π))) (h : petal0 al raw table = .ok out) :
    List.Forall₂ (fun s r => SpotRow al s r ∧ Named0 table s.dloc r.rest.type r.rest.id r.rest.bus)
      (kept 0 positive raw) out := by
  obtain ⟨t, hb, -, hdid, hout⟩ := (petal0_iff al raw table hU out).1 h
  have hrows := base_spots al 0 _ raw t hb
  have hk : ∀ s ∈ kept 0 positive raw, 0 < s.dloc := fun s hs => of_decide_eq_true (p := 0 < s.dloc) (mem_kept.1 hs).2.2.1
  generalize kept 0 positive raw = K at hrows hk hdid
  have hdid' : ∀ p ∈ did, ∀ e, Last0 table p.1 e → e.id = p.2 := fun p hp => (hdid p hp).2
  clear hdid hb h
  induction hrows generalizing out with
  | nil => cases hout; exact List.Forall₂.nil
  | @cons s r K t hsr _ ih =>
    cases hout with
    | @cons _ r' _ out hr hrest =>
      refine List.Forall₂.cons ?_ (ih out hrest fun s hs => hk s (List.mem_cons_of_mem _ hs))
      have hd : 0 ≤ s.dloc := le_of_lt (hk s List.mem_cons_self)
      obtain ⟨a1, a2, a3, a4⟩ := give0_row al (table.filter fun e => decide (0 ≤ e.dloc ∧ e.petal = ['0'])) hsr
      rw [entryOf0 table s.dloc hd] at a2 a3 a4
      set g := give0 (table.filter fun e => decide (0 ≤ e.dloc ∧ e.petal = ['0'])) r
      obtain ⟨f1, f2, f3⟩ := fix_all did g
      rcases hL : (table.filter fun e => decide (e.petal = ['0'] ∧ e.dloc = s.dloc)).getLast? with _ | e
      · rw [hL] at a2 a3 a4
        have hno : None0 table s.dloc := by
          rw [← entryOf0_none table s.dloc hd, entryOf0 table s.dloc hd]
          exact hL
        by_cases hf : ∃ p ∈ did, s.dloc = p.1
        · obtain ⟨p, hp, e⟩ := hf
          rw [f3 a2 did_nodup p hp (by rw [a1.dloc, e])] at hr
          obtain ⟨b1, b2⟩ := rename_inv al (setIds_row al a1 _ _ _) hr
          refine ⟨b1, ?_⟩
          rcases b2 with ⟨b2, -⟩ | ⟨-, rfl⟩
          · exfalso
            change fidType p.1 = _ at b2
            unfold fidType at b2
            split_ifs at b2 <;> revert b2 <;> decide
          · have := Named0.fiducial hno p.2 (by rw [e]; exact hp)
            show Named0 table s.dloc (fidType p.1) p.2 g.rest.bus
            rw [a4]
            unfold fidType
            rw [← e]
            exact this
        · rw [f2 (fun p hp e => hf ⟨p, hp, by rw [a1.dloc] at e; exact Option.some.inj e⟩)] at hr
          obtain ⟨b1, b2⟩ := rename_inv al a1 hr
          refine ⟨b1, ?_⟩
          rcases b2 with ⟨b2, -⟩ | ⟨-, rfl⟩
          · exfalso
            rw [a2] at b2
            revert b2
            decide
          · rw [a2, a3, a4]
            exact Named0.missing hno fun name hm => hf ⟨_, hm, rfl⟩
      · rw [hL] at a2 a3 a4
        have hm : e ∈ table := (List.mem_filter.1 (List.mem_of_getLast? hL)).1
        rw [f1 (by rw [a2]; exact hU e hm)] at hr
        obtain ⟨b1, b2⟩ := rename_inv al a1 hr
        refine ⟨b1, ?_⟩
        rcases b2 with ⟨b2, n, b3, b4, b5, b6⟩ | ⟨b2, rfl⟩
        · rw [b4, b5, b6, a4]
          rw [a3] at b3
          rw [a2] at b2
          exact Named0.pos e hL b2 n b3
        · rw [a2, a3, a4]
          rw [a2] at b2
          exact Named0.other e hL b2 fun name hn => hdid' _ hn e hL

/-- **C109** When the script for petal 0 gives a table: the pinhole cells can be read, device `07004` is in the table of positioners, each of the twelve
fiducials known to the script has a spot and the name known to it if it is in the table, and identifiers of positioners are
numbers. -/
theorem C109_petal0_stops (al : Model.Ptl2fp.Dict) (hal : (al 0).isSome) (raw : List (Spot π)) (table : List Entry)
    (hU : ∀ e ∈ table, e.type ≠ "UNKNOWN".toList) : (∃ out, petal0 al raw table = .ok out) ↔
      (∀ s ∈ raw, s.petal = 0 → 0 < s.dloc → s.pin ≠ [] ∧ (s.pin.head? = some 'M' → ∃ c, s.pin[1]? = some c ∧ c.isDigit)) ∧
      (∃ e ∈ table, 0 ≤ e.dloc ∧ e.petal = ['0'] ∧ e.id = "07004".toList) ∧
      (∀ p ∈ did, (∃ s ∈ kept 0 positive raw, s.dloc = p.1) ∧ ∀ e, Last0 table p.1 e → e.id = p.2) ∧
      ∀ s ∈ kept 0 positive raw, ∀ e, Last0 table s.dloc e → e.type = "POS".toList → int? e.id ≠ none := by
  have hstart := C79_start al ((raw.filter fun s => decide (s.petal = 0) && positive s.dloc).map toRaw) (by
    intro q hq _
    obtain ⟨s, -, rfl⟩ := List.mem_map.1 hq
    exact hal)
  have hpins : (∀ q ∈ ((raw.filter fun s => decide (s.petal = 0) && positive s.dloc).map toRaw), q.ploc < 10 →
      q.pin ≠ [] ∧ (q.pin.head? = some 'M' → ∃ c, q.pin[1]? = some c ∧ c.isDigit)) ↔
      ∀ s ∈ raw, s.petal = 0 → 0 < s.dloc → s.pin ≠ [] ∧ (s.pin.head? = some 'M' → ∃ c, s.pin[1]? = some c ∧ c.isDigit) := by
    constructor
    · intro h s hs h1 h2
      exact h (toRaw s) (List.mem_map_of_mem (List.mem_filter.2 ⟨hs, by simp [h1, h2, positive]⟩)) (by norm_num [toRaw])
    · intro h q hq _
      obtain ⟨s, hs, rfl⟩ := List.mem_map.1 hq
      obtain ⟨h1, h2⟩ := List.mem_filter.1 hs
      simp only [positive, Bool.and_eq_true, decide_eq_true_eq] at h2
      exact h s h1 h2.1 h2.2
  rw [hpins] at hstart
  have hname : ∀ s ∈ kept 0 positive raw, ∀ r, SpotRow al s r →
      ((∃ r', rename (did.foldl (fun r p => fix1 p r) (give0 (table.filter fun e => decide (0 ≤ e.dloc ∧ e.petal = ['0'])) r)) = .ok r') ↔
        ∀ e, Last0 table s.dloc e → e.type = "POS".toList → int? e.id ≠ none) := by
    intro s hs r hsr
    have hd : 0 ≤ s.dloc := le_of_lt (of_decide_eq_true (p := 0 < s.dloc) (mem_kept.1 hs).2.2.1)
    obtain ⟨a1, a2, a3, a4⟩ := give0_row al (table.filter fun e => decide (0 ≤ e.dloc ∧ e.petal = ['0'])) hsr
    rw [entryOf0 table s.dloc hd] at a2 a3 a4
    set g := give0 (table.filter fun e => decide (0 ≤ e.dloc ∧ e.petal = ['0'])) r
    obtain ⟨f1, f2, f3⟩ := fix_all did g
    unfold Last0
    rcases hL : (table.filter fun e => decide (e.petal = ['0'] ∧ e.dloc = s.dloc)).getLast? with _ | e
    · rw [hL] at a2 a3 a4
      refine ⟨fun _ e he => (by rw [hL] at he; cases he), fun _ => ?_⟩
      by_cases hf : ∃ p ∈ did, s.dloc = p.1
      · obtain ⟨p, hp, e⟩ := hf
        rw [f3 a2 did_nodup p hp (by rw [a1.dloc, e])]
        refine ⟨_, if_neg ?_⟩
        show fidType p.1 ≠ _
        unfold fidType
        split_ifs <;> decide
      · rw [f2 (fun p hp e => hf ⟨p, hp, by rw [a1.dloc] at e; exact Option.some.inj e⟩)]
        refine ⟨_, if_neg ?_⟩
        rw [a2]
        decide
    · rw [hL] at a2 a3 a4
      have hm : e ∈ table := (List.mem_filter.1 (List.mem_of_getLast? hL)).1
      rw [f1 (by rw [a2]; exact hU e hm)]
      change _ = e.type at a2
      change _ = e.id at a3
      unfold rename
      rw [a2, a3]
      constructor
      · rintro ⟨r', h⟩ e' he' hp
        rw [hL] at he'
        obtain rfl := Option.some.inj he'
        rw [if_pos hp] at h
        intro hc
        rw [hc] at h
        cases h
      · intro h
        by_cases hp : e.type = "POS".toList
        · rw [if_pos hp]
          rcases hi : int? e.id with _ | n
          · exact absurd hi (h e hL hp)
          · exact ⟨_, rfl⟩
        · rw [if_neg hp]
          exact ⟨_, rfl⟩
  constructor
  · rintro ⟨out, h⟩
    obtain ⟨t, hb, h1, h2, h3⟩ := (petal0_iff al raw table hU out).1 h
    refine ⟨hstart.1 ⟨t, hb⟩, h1, h2, ?_⟩
    intro s hs
    obtain ⟨r, hr, hsr⟩ := forall₂_mem (base_spots al 0 _ raw t hb) hs
    obtain ⟨r', -, hrr⟩ := forall₂_mem h3 hr
    exact (hname s hs r hsr).1 ⟨r', hrr⟩
  · rintro ⟨h0, h1, h2, h3⟩
    obtain ⟨t, hb⟩ := hstart.2 h0
    have hall : ∀ r ∈ t, ∃ r', rename (did.foldl (fun r p => fix1 p r)
        (give0 (table.filter fun e => decide (0 ≤ e.dloc ∧ e.petal = ['0'])) r)) = .ok r' := by
      intro r hr
      obtain ⟨s, hs, hsr⟩ := forall₂_mem' (base_spots al 0 _ raw t hb) hr
      exact (hname s hs r hsr).2 (h3 s hs)
    obtain ⟨out, hout⟩ := mapM_ok_of hall
    rw [Gpm.mapM_iff] at hout
    exact ⟨out, (petal0_iff al raw table hU out).2 ⟨t, hb, h1, h2, hout⟩⟩

/-- **C109** An identifier of five digits gets an `M` in front. -/
theorem C109_five_digits (a b c d e : ℕ) (ha : a < 10) (hb : b < 10) (hc : c < 10) (hd : d < 10) (he : e < 10) :
    ∃ n : ℤ, int? ([a, b, c, d, e].map Nat.digitChar) = some n ∧ pad5 n.toNat = [a, b, c, d, e].map Nat.digitChar := by
  have h := fold_digits [a, b, c, d, e] (by
    intro x hx
    simp only [List.mem_cons, List.not_mem_nil, or_false] at hx
    omega) 0
  refine ⟨_, h, ?_⟩
  rw [Int.toNat_natCast]
  simp only [List.foldl_cons, List.foldl_nil]
  unfold pad5
  rw [if_pos (by omega)]
  have e1 : (10 * (10 * (10 * (10 * (10 * 0 + a) + b) + c) + d) + e) / 10000 % 10 = a := by omega
  have e2 : (10 * (10 * (10 * (10 * (10 * 0 + a) + b) + c) + d) + e) / 1000 % 10 = b := by omega
  have e3 : (10 * (10 * (10 * (10 * (10 * 0 + a) + b) + c) + d) + e) / 100 % 10 = c := by omega
  have e4 : (10 * (10 * (10 * (10 * (10 * 0 + a) + b) + c) + d) + e) / 10 % 10 = d := by omega
  have e5 : (10 * (10 * (10 * (10 * (10 * 0 + a) + b) + c) + d) + e) % 10 = e := by omega
  rw [e1, e2, e3, e4, e5]

theorem toDigits_list (n : ℕ) : ∃ ds : List ℕ, Nat.toDigits 10 n = ds.map Nat.digitChar ∧ (∀ d ∈ ds, d < 10) ∧
    ds.foldl (fun a d => 10 * a + d) 0 = n := by
  induction n using Nat.strongRecOn with
  | _ n ih =>
    by_cases h : n < 10
    · exact ⟨[n], Nat.toDigits_of_lt_base h, by simpa using h, by simp⟩
    · obtain ⟨ds, h1, h2, h3⟩ := ih (n / 10) (by omega)
      refine ⟨ds ++ [n % 10], ?_, ?_, ?_⟩
      · rw [Nat.toDigits_of_base_le (by norm_num) (by omega), h1, List.map_append]
        rfl
      · intro d hd
        rcases List.mem_append.1 hd with hd | hd
        · exact h2 d hd
        · rw [List.mem_singleton.1 hd]; omega
      · rw [List.foldl_append, h3]
        simp only [List.foldl_cons, List.foldl_nil]
        omega

/-- **C109** The identifier written has the value of the one read, at least five digits, and no zero in front if it has more. So different
numbers have different identifiers. -/
theorem C109_identifier (n : ℕ) : int? (pad5 n) = some (n : ℤ) ∧ 5 ≤ (pad5 n).length ∧ (5 < (pad5 n).length ↔ 100000 ≤ n) := by
  unfold pad5
  by_cases h : n < 100000
  · rw [if_pos h]
    refine ⟨?_, by simp, by simp; omega⟩
    have hf := fold_digits [n / 10000 % 10, n / 1000 % 10, n / 100 % 10, n / 10 % 10, n % 10] (by
      intro x hx
      simp only [List.mem_cons, List.not_mem_nil, or_false] at hx
      omega) 0
    refine hf.trans (congrArg some (congrArg Nat.cast ?_))
    simp only [List.foldl_cons, List.foldl_nil]
    omega
  · rw [if_neg h]
    have h6 : 5 < (Nat.toDigits 10 n).length := by
      have := Nat.length_toDigits_le_iff (b := 10) (n := n) (k := 5) (by norm_num) (by norm_num)
      omega
    refine ⟨?_, h6.le, by omega⟩
    obtain ⟨ds, h1, h2, h3⟩ := toDigits_list n
    have hf := fold_digits ds h2 0
    unfold int?
    rw [if_neg Nat.toDigits_ne_nil, h1]
    refine hf.trans ?_
    rw [h3]

/-! ### Petal 1 -/

/-- The spot number `i` is the first of the list at its location. -/
def First (l : List (Spot π)) (i : ℕ) (s : Spot π) : Prop := ∀ j < i, ∀ s', l[j]? = some s' → s'.dloc ≠ s.dloc

/-- The last entry at a location in the table of positioners, of whatever petal. -/
def Last1 (table : List Entry) (d : ℤ) (e : Entry) : Prop := (table.filter fun e => decide (e.dloc = d)).getLast? = some e

/-- Petal 1 before the patch. -/
structure Named1 (table : List Entry) (l : List (Spot π)) (i : ℕ) (s : Spot π) (r : Row (Extra π)) : Prop where
  entry : ∃ e, Last1 table s.dloc e ∧ r.rest.id = e.id ∧ r.rest.bus = e.bus ∧
    (¬ ((s.dloc = 461 ∨ s.dloc = 501) ∧ First l i s) → r.rest.type = e.type)
  etc : (s.dloc = 461 ∨ s.dloc = 501) → First l i s → r.rest.type = "ETC".toList

theorem etc_iff (loc : ℤ) (l l' : List (Row (Extra π))) (h : etcOne loc l = .ok l') : l'.length = l.length ∧
    ∀ (i : ℕ) r, l[i]? = some r → ∃ r', l'[i]? = some r' ∧
      ((r.dloc = some loc ∧ ∀ j < i, ∀ q : Row (Extra π), l[j]? = some q → q.dloc ≠ some loc) → r' = setIds r "ETC".toList r.rest.id r.rest.bus) ∧
      (¬ (r.dloc = some loc ∧ ∀ j < i, ∀ q : Row (Extra π), l[j]? = some q → q.dloc ≠ some loc) → r' = r) := by
  induction l generalizing l' with
  | nil => cases h
  | cons a t ih =>
    unfold etcOne at h
    split_ifs at h with ha
    · obtain rfl := Except.ok.inj h
      refine ⟨rfl, ?_⟩
      intro i r hr
      rcases i with _ | i
      · obtain rfl := Option.some.inj hr
        exact ⟨_, rfl, fun _ => rfl, fun hn => absurd ⟨ha, fun j hj => absurd hj (by omega)⟩ hn⟩
      · refine ⟨r, hr, ?_, fun _ => rfl⟩
        rintro ⟨-, hc⟩
        exact absurd ha (hc 0 (by omega) a rfl)
    · rcases ht : etcOne loc t with e | t'
      · rw [ht] at h; cases h
      · rw [ht] at h
        obtain rfl := Except.ok.inj h
        obtain ⟨h1, h2⟩ := ih t' ht
        refine ⟨by simp [h1], ?_⟩
        intro i r hr
        rcases i with _ | i
        · obtain rfl := Option.some.inj hr
          exact ⟨_, rfl, fun hc => absurd hc.1 ha, fun _ => rfl⟩
        · obtain ⟨r', a1, a2, a3⟩ := h2 i r hr
          have hiff : (∀ j < i + 1, ∀ q, (a :: t)[j]? = some q → q.dloc ≠ some loc) ↔ ∀ j < i, ∀ q, t[j]? = some q → q.dloc ≠ some loc := by
            constructor
            · intro hh j hj q hq
              exact hh (j + 1) (by omega) q hq
            · intro hh j hj q hq
              rcases j with _ | j
              · obtain rfl := Option.some.inj hq
                exact ha
              · exact hh j (by omega) q hq
          rw [hiff]
          exact ⟨r', a1, a2, a3⟩

theorem etc_ok (loc : ℤ) (l : List (Row (Extra π))) : (∃ l', etcOne loc l = .ok l') ↔ ∃ r ∈ l, r.dloc = some loc := by
  induction l with
  | nil =>
    constructor
    · rintro ⟨l', h⟩; cases h
    · rintro ⟨r, h, -⟩; cases h
  | cons a t ih =>
    unfold etcOne
    split_ifs with ha
    · exact ⟨fun _ => ⟨a, List.mem_cons_self, ha⟩, fun _ => ⟨_, rfl⟩⟩
    · constructor
      · rintro ⟨l', h⟩
        rcases ht : etcOne loc t with e | t'
        · rw [ht] at h; cases h
        · obtain ⟨r, hr, hd⟩ := ih.1 ⟨t', ht⟩
          exact ⟨r, List.mem_cons_of_mem _ hr, hd⟩
      · rintro ⟨r, hr, hd⟩
        rcases List.mem_cons.1 hr with rfl | hr
        · exact absurd hd ha
        · obtain ⟨t', ht⟩ := ih.2 ⟨r, hr, hd⟩
          exact ⟨a :: t', by rw [ht]; rfl⟩

theorem getElem_of_forall₂ {α β : Type} {R : α → β → Prop} {l : List α} {m : List β} (h : List.Forall₂ R l m) (i : ℕ) (a : α)
    (ha : l[i]? = some a) : ∃ b, m[i]? = some b ∧ R a b := by
  induction h generalizing i with
  | nil => cases ha
  | cons h1 _ ih =>
    rcases i with _ | i
    · obtain rfl := Option.some.inj ha
      exact ⟨_, rfl, h1⟩
    · exact ih i ha

theorem entryOf1 (table : List Entry) (d : ℤ) : entryOf table (some d) = (table.filter fun e => decide (e.dloc = d)).getLast? := by
  rw [entryOf_last]
  congr 1
  apply List.filter_congr
  intro e _
  simp

theorem give1_iff (al : Model.Ptl2fp.Dict) (table : List Entry) {s : Spot π} {r r' : Row (Extra π)} (h : SpotRow al s r)
    (hg : give1 table r = .ok r') : SpotRow al s r' ∧ ∃ e, Last1 table s.dloc e ∧ r'.rest.id = e.id ∧ r'.rest.bus = e.bus ∧ r'.rest.type = e.type := by
  unfold give1 at hg
  rw [h.dloc] at hg
  rcases he : entryOf table (some s.dloc) with _ | e
  · rw [he] at hg; cases hg
  · rw [he] at hg
    obtain rfl := Except.ok.inj hg
    exact ⟨setIds_row al h _ _ _, e, by rw [entryOf1] at he; exact he, rfl, rfl, rfl⟩

/-- The steps of the script for petal 1. -/
theorem petal1_steps (al : Model.Ptl2fp.Dict) (nr : Bool) (raw : List (Spot π)) (table : List Entry) (patch out : List (Row (Extra π)))
    (h : petal1 al nr raw table patch = .ok out) : ∃ t0 t1 t2 t3,
      base al ((raw.filter fun s => decide (s.petal = 1) && (fun _ => true) s.dloc).map toRaw) = .ok t0 ∧
      List.Forall₂ (fun r r' => give1 table r = .ok r') t0 t1 ∧ etcOne 461 t1 = .ok t2 ∧ etcOne 501 t2 = .ok t3 ∧ out = patchAll nr t3 patch := by
  unfold petal1 at h
  rw [filter1] at h
  obtain ⟨t0, h0, h⟩ := bind_inv h
  obtain ⟨t1, h1, h⟩ := bind_inv h
  obtain ⟨t2, h2, h⟩ := bind_inv h
  obtain ⟨t3, h3, h⟩ := bind_inv h
  rw [Gpm.mapM_iff] at h1
  exact ⟨t0, t1, t2, t3, h0, h1, h2, h3, (Except.ok.inj h).symm⟩

/-- **C109** The table of petal 1 before the patch has one row for every spot of petal 1 more than 1 mm from the axis, in order, with type, identifier
and bus of the last entry at its location; the first row at 461 and the first at 501 have type ETC. In the table written, pinholes in the patch have the
last row of the patch about them (with `--no-replacement`: what was there, else the first row of the patch), and all others are
as before. -/
theorem C109_petal1 (al : Model.Ptl2fp.Dict) (nr : Bool) (raw : List (Spot π)) (table : List Entry) (patch out : List (Row (Extra π)))
    (h : petal1 al nr raw table patch = .ok out) : ∃ t : List (Row (Extra π)),
      t.length = (kept 1 (fun _ => true) raw).length ∧
      (∀ (i : ℕ) s, (kept 1 (fun _ => true) raw)[i]? = some s → ∃ r, t[i]? = some r ∧ SpotRow al s r ∧
        Named1 table (kept 1 (fun _ => true) raw) i s r) ∧
      (nr = false → ∀ l k before p after, patch = before ++ p :: after → At l k p → (∀ q ∈ after, ¬ At l k q) →
        rowsAt l k out = List.replicate (max 1 (rowsAt l k t).length) p) ∧
      (nr = true → ∀ l k, (rowsAt l k t ≠ [] → rowsAt l k out = rowsAt l k t) ∧
        (rowsAt l k t = [] → rowsAt l k out = (rowsAt l k patch).take 1)) ∧
      (out.filter fun r => decide (¬ ∃ p ∈ patch, r.loc = p.loc ∧ r.pin = p.pin)) =
        t.filter fun r => decide (¬ ∃ p ∈ patch, r.loc = p.loc ∧ r.pin = p.pin) := by
  obtain ⟨t0, t1, t2, t3, h0, h1, h2, h3, rfl⟩ := petal1_steps al nr raw table patch out h
  have hrows := base_spots al 1 (fun _ => true) raw t0 h0
  set K := kept 1 (fun _ => true) raw
  obtain ⟨l2, e2⟩ := etc_iff 461 t1 t2 h2
  obtain ⟨l3, e3⟩ := etc_iff 501 t2 t3 h3
  refine ⟨t3, by rw [l3, l2, ← h1.length_eq, ← hrows.length_eq], ?_, ?_, ?_, C79_unpatched nr t3 patch⟩
  · -- rows after the table of positioners
    have g1 : ∀ (i : ℕ) s, K[i]? = some s → ∃ r, t1[i]? = some r ∧ SpotRow al s r ∧ ∃ e, Last1 table s.dloc e ∧ r.rest.id = e.id ∧
        r.rest.bus = e.bus ∧ r.rest.type = e.type := by
      intro i s hs
      obtain ⟨r, hr, hsr⟩ := getElem_of_forall₂ hrows i s hs
      obtain ⟨r', hr', hg⟩ := getElem_of_forall₂ h1 i r hr
      obtain ⟨a, b⟩ := give1_iff al table hsr hg
      exact ⟨r', hr', a, b⟩
    have back : ∀ (i : ℕ) r, t1[i]? = some r → ∃ s, K[i]? = some s ∧ r.dloc = some s.dloc := by
      intro i r hr
      have hlt : i < K.length := by
        rw [hrows.length_eq, h1.length_eq]
        exact (List.getElem?_eq_some_iff.1 hr).1
      obtain ⟨r', hr', a, -⟩ := g1 i K[i] (List.getElem?_eq_getElem hlt)
      rw [hr] at hr'
      rw [Option.some.inj hr']
      exact ⟨K[i], List.getElem?_eq_getElem hlt, a.dloc⟩
    -- rows after 461
    have g2 : ∀ (i : ℕ) s, K[i]? = some s → ∃ r, t2[i]? = some r ∧ SpotRow al s r ∧ ∃ e, Last1 table s.dloc e ∧ r.rest.id = e.id ∧
        r.rest.bus = e.bus ∧ (¬ (s.dloc = 461 ∧ First K i s) → r.rest.type = e.type) ∧
        ((s.dloc = 461 ∧ First K i s) → r.rest.type = "ETC".toList) := by
      intro i s hs
      obtain ⟨r, hr, hsr, e, he, b1, b2, b3⟩ := g1 i s hs
      obtain ⟨r', hr', c1, c2⟩ := e2 i r hr
      have hiff : (r.dloc = some 461 ∧ ∀ j < i, ∀ q, t1[j]? = some q → q.dloc ≠ some 461) ↔ s.dloc = 461 ∧ First K i s := by
        rw [hsr.dloc, Option.some.injEq]
        refine and_congr_right fun hd => ?_
        constructor
        · intro hh j hj s' hs'
          obtain ⟨q, hq, hq', -⟩ := g1 j s' hs'
          have := hh j hj q hq
          rw [hq'.dloc] at this
          rw [hd]
          exact fun e => this (by rw [e])
        · intro hh j hj q hq
          obtain ⟨s', hs', hd'⟩ := back j q hq
          have := hh j hj s' hs'
          rw [hd', ← hd]
          exact fun e => this (Option.some.inj e)
      rw [hiff] at c1 c2
      by_cases hF : s.dloc = 461 ∧ First K i s
      · obtain rfl := c1 hF
        exact ⟨_, hr', setIds_row al hsr _ _ _, e, he, b1, b2, fun hn => absurd hF hn, fun _ => rfl⟩
      · obtain rfl := c2 hF
        exact ⟨_, hr', hsr, e, he, b1, b2, fun _ => b3, fun hn => absurd hn hF⟩
    have back2 : ∀ (i : ℕ) r, t2[i]? = some r → ∃ s, K[i]? = some s ∧ r.dloc = some s.dloc := by
      intro i r hr
      have hlt : i < K.length := by
        rw [hrows.length_eq, h1.length_eq, ← l2]
        exact (List.getElem?_eq_some_iff.1 hr).1
      obtain ⟨r', hr', a, -⟩ := g2 i K[i] (List.getElem?_eq_getElem hlt)
      rw [hr] at hr'
      rw [Option.some.inj hr']
      exact ⟨K[i], List.getElem?_eq_getElem hlt, a.dloc⟩
    intro i s hs
    obtain ⟨r, hr, hsr, e, he, b1, b2, b3, b4⟩ := g2 i s hs
    obtain ⟨r', hr', c1, c2⟩ := e3 i r hr
    have hiff : (r.dloc = some 501 ∧ ∀ j < i, ∀ q, t2[j]? = some q → q.dloc ≠ some 501) ↔ s.dloc = 501 ∧ First K i s := by
      rw [hsr.dloc, Option.some.injEq]
      refine and_congr_right fun hd => ?_
      constructor
      · intro hh j hj s' hs'
        obtain ⟨q, hq, hq', -⟩ := g2 j s' hs'
        have := hh j hj q hq
        rw [hq'.dloc] at this
        rw [hd]
        exact fun e => this (by rw [e])
      · intro hh j hj q hq
        obtain ⟨s', hs', hd'⟩ := back2 j q hq
        have := hh j hj s' hs'
        rw [hd', ← hd]
        exact fun e => this (Option.some.inj e)
    rw [hiff] at c1 c2
    by_cases hF : s.dloc = 501 ∧ First K i s
    · obtain rfl := c1 hF
      exact ⟨_, hr', setIds_row al hsr _ _ _, ⟨e, he, b1, b2, fun hn => absurd ⟨Or.inr hF.1, hF.2⟩ hn⟩, fun _ _ => rfl⟩
    · obtain rfl := c2 hF
      refine ⟨_, hr', hsr, ⟨e, he, b1, b2, fun hn => b3 fun hc => hn ⟨Or.inl hc.1, hc.2⟩⟩, ?_⟩
      rintro (h4 | h5) hf
      · exact b4 ⟨h4, hf⟩
      · exact absurd ⟨h5, hf⟩ hF
  · rintro rfl l k before p after hp hat hlast
    exact C79_replace t3 patch l k before after p hat hp hlast
  · rintro rfl l k
    exact C79_no_replacement t3 patch l k

/-- **C109** When the script for petal 1 gives a table: the pinhole cells can be read, every spot kept has an entry at its location in the table of
positioners, and there is a spot kept at 461 and one at 501. -/
theorem C109_petal1_stops (al : Model.Ptl2fp.Dict) (hal : (al 0).isSome) (nr : Bool) (raw : List (Spot π)) (table : List Entry)
    (patch : List (Row (Extra π))) : (∃ out, petal1 al nr raw table patch = .ok out) ↔
      (∀ s ∈ raw, s.petal = 1 → s.pin ≠ [] ∧ (s.pin.head? = some 'M' → ∃ c, s.pin[1]? = some c ∧ c.isDigit)) ∧
      (∀ s ∈ kept 1 (fun _ => true) raw, ∃ e ∈ table, e.dloc = s.dloc) ∧
      (∃ s ∈ kept 1 (fun _ => true) raw, s.dloc = 461) ∧ ∃ s ∈ kept 1 (fun _ => true) raw, s.dloc = 501 := by
  have hstart := C79_start al ((raw.filter fun s => decide (s.petal = 1) && (fun _ => true) s.dloc).map toRaw) (by
    intro q hq _
    obtain ⟨s, -, rfl⟩ := List.mem_map.1 hq
    exact hal)
  have hpins : (∀ q ∈ ((raw.filter fun s => decide (s.petal = 1) && (fun _ => true) s.dloc).map toRaw), q.ploc < 10 →
      q.pin ≠ [] ∧ (q.pin.head? = some 'M' → ∃ c, q.pin[1]? = some c ∧ c.isDigit)) ↔
      ∀ s ∈ raw, s.petal = 1 → s.pin ≠ [] ∧ (s.pin.head? = some 'M' → ∃ c, s.pin[1]? = some c ∧ c.isDigit) := by
    constructor
    · intro h s hs h1
      exact h (toRaw s) (List.mem_map_of_mem (List.mem_filter.2 ⟨hs, by simp [h1]⟩)) (by norm_num [toRaw])
    · intro h q hq _
      obtain ⟨s, hs, rfl⟩ := List.mem_map.1 hq
      obtain ⟨h1, h2⟩ := List.mem_filter.1 hs
      simp only [Bool.and_true, decide_eq_true_eq] at h2
      exact h s h1 h2
  rw [hpins] at hstart
  constructor
  · rintro ⟨out, h⟩
    obtain ⟨t0, t1, t2, t3, h0, h1, h2, h3, rfl⟩ := petal1_steps al nr raw table patch out h
    have hrows := base_spots al 1 (fun _ => true) raw t0 h0
    have hloc : ∀ loc : ℤ, (∃ r ∈ t1, r.dloc = some loc) → ∃ s ∈ kept 1 (fun _ => true) raw, s.dloc = loc := by
      rintro loc ⟨r, hr, hd⟩
      obtain ⟨q, hq, hg⟩ := forall₂_mem' h1 hr
      obtain ⟨s, hs, hsr⟩ := forall₂_mem' hrows hq
      refine ⟨s, hs, ?_⟩
      have := (give1_iff al table hsr hg).1.dloc
      rw [hd] at this
      exact (Option.some.inj this).symm
    refine ⟨hstart.1 ⟨t0, h0⟩, ?_, hloc 461 ((etc_ok 461 t1).1 ⟨t2, h2⟩), hloc 501 ?_⟩
    · intro s hs
      obtain ⟨r, hr, hsr⟩ := forall₂_mem hrows hs
      obtain ⟨r', -, hg⟩ := forall₂_mem h1 hr
      obtain ⟨-, e, he, -⟩ := give1_iff al table hsr hg
      obtain ⟨h5, h6⟩ := List.mem_filter.1 (List.mem_of_getLast? he)
      exact ⟨e, h5, of_decide_eq_true h6⟩
    · obtain ⟨r, hr, hd⟩ := (etc_ok 501 t2).1 ⟨t3, h3⟩
      obtain ⟨l2, e2⟩ := etc_iff 461 t1 t2 h2
      obtain ⟨i, hi⟩ := List.mem_iff_getElem?.1 hr
      have hlt : i < t1.length := by rw [← l2]; exact (List.getElem?_eq_some_iff.1 hi).1
      obtain ⟨r', hr', c1, c2⟩ := e2 i t1[i] (List.getElem?_eq_getElem hlt)
      rw [hi] at hr'
      obtain rfl := Option.some.inj hr'
      refine ⟨t1[i], List.getElem_mem hlt, ?_⟩
      by_cases hc : t1[i].dloc = some 461 ∧ ∀ j < i, ∀ q, t1[j]? = some q → q.dloc ≠ some 461
      · rw [c1 hc] at hd; exact hd
      · rw [c2 hc] at hd; exact hd
  · rintro ⟨h0, h1, h461, h501⟩
    obtain ⟨t0, ht0⟩ := hstart.2 h0
    have hrows := base_spots al 1 (fun _ => true) raw t0 ht0
    have hg : ∀ r ∈ t0, ∃ r', give1 table r = .ok r' := by
      intro r hr
      obtain ⟨s, hs, hsr⟩ := forall₂_mem' hrows hr
      obtain ⟨e, he, hd⟩ := h1 s hs
      unfold give1
      rw [hsr.dloc]
      rcases hx : entryOf table (some s.dloc) with _ | e'
      · rw [entryOf1, List.getLast?_eq_none_iff, List.filter_eq_nil_iff] at hx
        exact absurd (decide_eq_true hd) (hx e he)
      · exact ⟨_, rfl⟩
    obtain ⟨t1, ht1⟩ := mapM_ok_of hg
    have ht1' := (Gpm.mapM_iff _ _ _).1 ht1
    have hin : ∀ loc : ℤ, (∃ s ∈ kept 1 (fun _ => true) raw, s.dloc = loc) → ∃ r ∈ t1, r.dloc = some loc := by
      rintro loc ⟨s, hs, rfl⟩
      obtain ⟨r, hr, hsr⟩ := forall₂_mem hrows hs
      obtain ⟨r', hr', hgr⟩ := forall₂_mem ht1' hr
      exact ⟨r', hr', (give1_iff al table hsr hgr).1.dloc⟩
    obtain ⟨t2, ht2⟩ := (etc_ok 461 t1).2 (hin 461 h461)
    obtain ⟨l2, e2⟩ := etc_iff 461 t1 t2 ht2
    obtain ⟨t3, ht3⟩ := (etc_ok 501 t2).2 (by
      obtain ⟨r, hr, hd⟩ := hin 501 h501
      obtain ⟨i, hi⟩ := List.mem_iff_getElem?.1 hr
      obtain ⟨r', hr', c1, c2⟩ := e2 i r hi
      refine ⟨r', List.mem_iff_getElem?.2 ⟨i, hr'⟩, ?_⟩
      rw [c2 (fun hc => by rw [hd] at hc; exact absurd hc.1 (by norm_num))]
      exact hd)
    refine ⟨patchAll nr t3 patch, ?_⟩
    unfold petal1
    rw [filter1]
    show (base al ((raw.filter fun s => decide (s.petal = 1) && (fun _ => true) s.dloc).map toRaw) >>= fun spots => _) = _
    rw [ht0]
    show (t0.mapM (give1 table) >>= fun spots => _) = _
    rw [ht1]
    show (etcOne 461 t1 >>= fun spots => _) = _
    rw [ht2]
    show (etcOne 501 t2 >>= fun spots => _) = _
    rw [ht3]
    rfl

/-- **C109** (finding) A spot exactly 1 mm from the axis is left out of both tables, but is not among those a warning is written about (below 1 mm). -/
theorem C109_one_mm (s : Spot π) (h : Real.sqrt (s.ptl 0 ^ 2 + s.ptl 1 ^ 2) = 1) (petal : ℤ) (ok : ℤ → Bool) (raw : List (Spot π)) :
    s ∉ kept petal ok raw ∧ ¬ Real.sqrt (s.ptl 0 ^ 2 + s.ptl 1 ^ 2) < 1 := by
  constructor
  · intro hm
    have := (mem_kept.1 hm).2.2.2
    rw [h] at this
    exact lt_irrefl _ this
  · rw [h]; exact lt_irrefl _

/-- The hypotheses of the theorem on petal 1 can be met. -/
example : ∃ (al : Model.Ptl2fp.Dict) (raw : List (Spot Unit)) (table : List Entry) (out : List (Row (Extra Unit))),
    petal1 al false raw table [] = .ok out ∧ (kept 1 (fun _ => true) raw) ≠ [] := by
  have hs : ∀ d : ℤ, (⟨1, d, [], ['1'], ![3, 0, 0], ()⟩ : Spot Unit) ∈
      kept 1 (fun _ => true) [(⟨1, 461, [], ['1'], ![3, 0, 0], ()⟩ : Spot Unit), ⟨1, 501, [], ['1'], ![3, 0, 0], ()⟩] ↔ d = 461 ∨ d = 501 := by
    intro d
    rw [mem_kept]
    simp
  have hx := (C109_petal1_stops (fun _ => some ⟨0, 0, 0, 0, 0, 3⟩) rfl false
    [(⟨1, 461, [], ['1'], ![3, 0, 0], ()⟩ : Spot Unit), ⟨1, 501, [], ['1'], ![3, 0, 0], ()⟩]
    [⟨['1'], 461, [], [], []⟩, ⟨['1'], 501, [], [], []⟩] []).2 ⟨by simp, ?_, ⟨_, (hs 461).2 (Or.inl rfl), rfl⟩, ⟨_, (hs 501).2 (Or.inr rfl), rfl⟩⟩
  · obtain ⟨out, ho⟩ := hx
    refine ⟨_, _, _, out, ho, ?_⟩
    intro hc
    have := (hs 461).2 (Or.inl rfl)
    rw [hc] at this
    cases this
  · intro s hsm
    have hm := (mem_kept.1 hsm).1
    simp only [List.mem_cons, List.not_mem_nil, or_false] at hm
    rcases hm with rfl | rfl
    · exact ⟨_, List.mem_cons_self, rfl⟩
    · exact ⟨_, List.mem_cons_of_mem _ List.mem_cons_self, rfl⟩

/-- The conditions of the script for petal 0 can be met: one spot for each fiducial and a table with device `07004` elsewhere. -/
example : ∃ (al : Model.Ptl2fp.Dict) (raw : List (Spot Unit)) (table : List Entry) (out : List (Row (Extra Unit))),
    petal0 al raw table = .ok out ∧ ∀ e ∈ table, e.type ≠ "UNKNOWN".toList := by
  have h3 : Real.sqrt ((3 : ℝ) ^ 2 + 0 ^ 2) = 3 := by
    rw [show (3 : ℝ) ^ 2 + 0 ^ 2 = 3 ^ 2 by norm_num]
    exact Real.sqrt_sq (by norm_num)
  have hU : ∀ e ∈ [(⟨['0'], 1000, "POS".toList, "07004".toList, []⟩ : Entry)], e.type ≠ "UNKNOWN".toList := by decide
  obtain ⟨out, ho⟩ := (C109_petal0_stops (fun _ => some ⟨0, 0, 0, 0, 0, 3⟩) rfl
    (did.map fun p => (⟨0, p.1, [], ['1'], ![3, 0, 0], ()⟩ : Spot Unit)) [⟨['0'], 1000, "POS".toList, "07004".toList, []⟩] hU).2 (by
    refine ⟨?_, ⟨_, List.mem_cons_self, by norm_num, rfl, rfl⟩, ?_, ?_⟩
    · intro s hs _ _
      obtain ⟨p, -, rfl⟩ := List.mem_map.1 hs
      simp
    · intro p hp
      refine ⟨⟨⟨0, p.1, [], ['1'], ![3, 0, 0], ()⟩, mem_kept.2 ⟨List.mem_map_of_mem (f := fun p : ℤ × PyStr => (⟨0, p.1, [], ['1'], ![3, 0, 0], ()⟩ : Spot Unit)) hp, rfl, ?_, ?_⟩, rfl⟩, ?_⟩
      · have : ∀ p ∈ did, positive p.1 = true := by decide
        exact this p hp
      · show 1 < Real.sqrt ((3 : ℝ) ^ 2 + 0 ^ 2)
        rw [h3]; norm_num
      · intro e he
        exfalso
        have hne : ∀ p ∈ did, p.1 ≠ 1000 := by decide
        obtain ⟨h5, h6⟩ := List.mem_filter.1 (List.mem_of_getLast? he)
        rw [List.mem_singleton] at h5
        subst h5
        exact hne p hp (of_decide_eq_true h6).2.symm
    · intro s hs e he _
      obtain ⟨h5, -⟩ := List.mem_filter.1 (List.mem_of_getLast? he)
      rw [List.mem_singleton] at h5
      subst h5
      decide)
  exact ⟨_, _, _, out, ho, hU⟩

/-- **C109** The fiducials of petal 0 known to the script. -/
theorem C109_fiducials (d : ℤ) (name : PyStr) : (d, name) ∈ did ↔
      (d = 11 ∧ name = "P146".toList) ∨ (d = 75 ∧ name = "P145".toList) ∨ (d = 150 ∧ name = "P147".toList) ∨
      (d = 239 ∧ name = "P144".toList) ∨ (d = 321 ∧ name = "P148".toList) ∨ (d = 439 ∧ name = "P078".toList) ∨
      (d = 482 ∧ name = "P059".toList) ∨ (d = 496 ∧ name = "P002".toList) ∨ (d = 517 ∧ name = "P067".toList) ∨
      (d = 534 ∧ name = "P073".toList) ∨ (d = 541 ∧ name = "P151".toList) ∨ (d = 542 ∧ name = "P150".toList) := by
  simp only [did, List.mem_cons, List.not_mem_nil, or_false, Prod.mk.injEq]

/-! ### Which exception -/

theorem mapM_error {α β : Type} {f : α → Except PyErr β} {e : PyErr} (l : List α) (h : ∀ a ∈ l, ∀ e', f a = .error e' → e' = e)
    (hx : ∃ a ∈ l, ∃ e', f a = .error e') : l.mapM f = .error e := by
  induction l with
  | nil => obtain ⟨a, ha, -⟩ := hx; cases ha
  | cons a l ih =>
    rw [List.mapM_cons]
    rcases ha : f a with e' | b
    · rw [h a (by simp) e' ha]
      rfl
    · have : ∃ a ∈ l, ∃ e', f a = .error e' := by
        obtain ⟨c, hc, e', he⟩ := hx
        rcases List.mem_cons.1 hc with rfl | hc
        · rw [ha] at he; cases he
        · exact ⟨c, hc, e', he⟩
      rw [show (do let b ← (Except.ok b : Except PyErr β); let bs ← l.mapM f; pure (b :: bs)) = (l.mapM f >>= fun bs => pure (b :: bs)) from rfl,
        ih (fun a ha => h a (List.mem_cons_of_mem _ ha)) this]
      rfl

/-- **C109** A spot of petal 1 at a location that is not in the table of positioners is a `KeyError`. Without device `07004` in the table, the script for petal 0
ends with an `IndexError`. An identifier of a positioner that is no number is a `ValueError`. -/
theorem C109_exceptions (al : Model.Ptl2fp.Dict) (raw : List (Spot π)) (table : List Entry) :
    (∀ nr patch t, base al ((raw.filter fun s => decide (s.petal = 1)).map toRaw) = .ok t →
      (∃ r ∈ t, ∀ e ∈ table, some e.dloc ≠ r.dloc) → petal1 al nr raw table patch = .error .keyError) ∧
    (∀ t, base al ((raw.filter fun s => decide (s.petal = 0 ∧ 0 < s.dloc)).map toRaw) = .ok t →
      (∀ e ∈ table, 0 ≤ e.dloc → e.petal = ['0'] → e.id ≠ "07004".toList) → petal0 al raw table = .error .indexError) ∧
    (∀ r : Row (Extra π), r.rest.type = "POS".toList → int? r.rest.id = none → rename r = .error .valueError) := by
  refine ⟨?_, ?_, ?_⟩
  · intro nr patch t hb ⟨r, hr, hno⟩
    have hg : ∀ (r : Row (Extra π)) e', give1 table r = .error e' → e' = .keyError := by
      intro r e' h
      unfold give1 at h
      split at h
      · cases h
      · cases h; rfl
    have hm : t.mapM (give1 table) = .error .keyError := by
      refine mapM_error t (fun a _ => hg a) ⟨r, hr, .keyError, ?_⟩
      have : entryOf table r.dloc = none := by
        rw [entryOf_last]
        have : (table.filter fun e => decide (some e.dloc = r.dloc)) = [] := by
          rw [List.filter_eq_nil_iff]
          intro e he
          simpa using hno e he
        rw [this]
        rfl
      unfold give1
      rw [this]
    unfold petal1
    rw [hb]
    change (t.mapM (give1 table) >>= _) = _
    rw [hm]
    rfl
  · intro t hb hno
    unfold petal0
    rw [hb]
    have : ((table.filter fun e => decide (0 ≤ e.dloc ∧ e.petal = ['0'])).all fun e => decide (e.id ≠ "07004".toList)) = true := by
      rw [List.all_eq_true]
      intro e he
      obtain ⟨h1, h2⟩ := List.mem_filter.1 he
      have h2 := of_decide_eq_true h2
      exact decide_eq_true (hno e h1 h2.1 h2.2)
    change (if _ then _ else _) = _
    rw [if_pos this]
    rfl
  · intro r h1 h2
    unfold rename
    rw [if_pos h1, h2]

theorem etc_error (loc : ℤ) (l : List (Row (Extra π))) (h : ∀ r ∈ l, r.dloc ≠ some loc) : etcOne loc l = .error .indexError := by
  induction l with
  | nil => rfl
  | cons a l ih =>
    unfold etcOne
    rw [if_neg (h a (by simp)), ih fun r hr => h r (List.mem_cons_of_mem _ hr)]
    rfl

/-- **C109** Without a spot of petal 1 at location 461 the script ends with an `IndexError`. -/
theorem C109_no_etc (al : Model.Ptl2fp.Dict) (nr : Bool) (raw : List (Spot π)) (table : List Entry) (patch t t1 : List (Row (Extra π)))
    (hb : base al ((raw.filter fun s => decide (s.petal = 1)).map toRaw) = .ok t) (hg : t.mapM (give1 table) = .ok t1)
    (h : ∀ r ∈ t1, r.dloc ≠ some 461) : petal1 al nr raw table patch = .error .indexError := by
  unfold petal1
  rw [hb]
  change (t.mapM (give1 table) >>= _) = _
  rw [hg]
  change (etcOne 461 t1 >>= _) = _
  rw [etc_error 461 t1 h]
  rfl

end Verif.Props.PetalTest
