import Verif.Lemmas.DirectionMesh

/-! Systems assembled when the direction of some fibers is reversed. -/

set_option linter.unusedSectionVars false
set_option linter.unusedSimpArgs false

namespace Fibermat
variable {K : Type} [Field K] [LinearOrder K] [IsStrictOrderedRing K]
open Spec

/-! ### Stiffness -/

theorem cell_get_sum (n m : Nat) (es : List (Nat × Nat × Cell K)) (r s : Nat) :
    Coo.get ⟨n, m, es⟩ r s = (es.map (fun e => if e.1 = r ∧ e.2.1 = s then e.2.2 else 0)).sum := by
  unfold Coo.get
  induction es with
  | nil => rfl
  | cons e es ih =>
    by_cases h : e.1 = r ∧ e.2.1 = s
    · rw [List.filter_cons_of_pos (by simpa using h), List.map_cons, List.sum_cons, ih, List.map_cons, List.sum_cons, if_pos h]
    · rw [List.filter_cons_of_neg (by simpa using h), ih, List.map_cons, List.sum_cons, if_neg h, zero_add]

/-- What one beam adds to an entry. -/
def beamVal (i j : ℕ) (k : Coeffs K) (r s : ℕ) : Cell K :=
  ((beamEntries i j k).map (fun e => if e.1 = r ∧ e.2.1 = s then e.2.2 else 0)).sum

theorem beamVal_zero {i j a c e g : ℕ} (k : Coeffs K) (he : e < 2) (hg : g < 2) (h : (i ≠ a ∧ j ≠ a) ∨ (i ≠ c ∧ j ≠ c)) :
    beamVal i j k (2 * a + e) (2 * c + g) = 0 := by
  have n00 : ∀ a b : ℕ, (2 * a = 2 * b) ↔ a = b := fun a b => by omega
  have n01 : ∀ a b : ℕ, (2 * a = 2 * b + 1) ↔ False := fun a b => iff_false_intro (by omega)
  have n10 : ∀ a b : ℕ, (2 * a + 1 = 2 * b) ↔ False := fun a b => iff_false_intro (by omega)
  have n11 : ∀ a b : ℕ, (2 * a + 1 = 2 * b + 1) ↔ a = b := fun a b => by omega
  unfold beamVal beamEntries
  rcases h with ⟨h1, h2⟩ | ⟨h1, h2⟩ <;> interval_cases e <;> interval_cases g <;>
    simp only [List.map_cons, List.map_nil, List.sum_cons, List.sum_nil, Nat.add_zero, n00, n01, n10, n11, h1, h2, false_and, and_false,
      if_false, add_zero]

theorem beamVal_same {i j a c i' j' a' c' e g : ℕ} (k : Coeffs K) (he : e < 2) (hg : g < 2) (h1 : i' = a' ↔ i = a) (h2 : j' = a' ↔ j = a)
    (h3 : i' = c' ↔ i = c) (h4 : j' = c' ↔ j = c) :
    beamVal i' j' k (2 * a' + e) (2 * c' + g) = beamVal i j k (2 * a + e) (2 * c + g) := by
  have n00 : ∀ a b : ℕ, (2 * a = 2 * b) ↔ a = b := fun a b => by omega
  have n01 : ∀ a b : ℕ, (2 * a = 2 * b + 1) ↔ False := fun a b => iff_false_intro (by omega)
  have n10 : ∀ a b : ℕ, (2 * a + 1 = 2 * b) ↔ False := fun a b => iff_false_intro (by omega)
  have n11 : ∀ a b : ℕ, (2 * a + 1 = 2 * b + 1) ↔ a = b := fun a b => by omega
  unfold beamVal beamEntries
  interval_cases e <;> interval_cases g <;>
    simp only [List.map_cons, List.map_nil, List.sum_cons, List.sum_nil, Nat.add_zero, n00, n01, n10, n11, h1, h2, h3, h4]

theorem beamVal_turn {i j a c e g : ℕ} (k : Coeffs K) (he : e < 2) (hg : g < 2) (hij : i ≠ j) :
    beamVal j i k (2 * a + e) (2 * c + g) = Cell.flip (decide (e = 1) != decide (g = 1)) (beamVal i j k (2 * a + e) (2 * c + g)) := by
  have n00 : ∀ a b : ℕ, (2 * a = 2 * b) ↔ a = b := fun a b => by omega
  have n01 : ∀ a b : ℕ, (2 * a = 2 * b + 1) ↔ False := fun a b => iff_false_intro (by omega)
  have n10 : ∀ a b : ℕ, (2 * a + 1 = 2 * b) ↔ False := fun a b => iff_false_intro (by omega)
  have n11 : ∀ a b : ℕ, (2 * a + 1 = 2 * b + 1) ↔ a = b := fun a b => by omega
  have hji : j ≠ i := hij.symm
  by_cases hz : (i ≠ a ∧ j ≠ a) ∨ (i ≠ c ∧ j ≠ c)
  · rw [beamVal_zero k he hg hz, beamVal_zero k he hg (by tauto)]
    exact (Cell.flip_zero _).symm
  · have hac : (a = i ∨ a = j) ∧ (c = i ∨ c = j) := by
      refine ⟨?_, ?_⟩ <;> by_contra hcon <;> apply hz <;> push Not at hcon
      · exact Or.inl ⟨hcon.1.symm, hcon.2.symm⟩
      · exact Or.inr ⟨hcon.1.symm, hcon.2.symm⟩
    unfold beamVal beamEntries
    obtain ⟨rfl | rfl, rfl | rfl⟩ := hac <;> interval_cases e <;> interval_cases g <;>
      simp only [List.map_cons, List.map_nil, List.sum_cons, List.sum_nil, Nat.add_zero, n00, n01, n10, n11, hij, hji, false_and, and_false,
        and_self, and_true, true_and, if_false, if_true, add_zero, zero_add, Cell.flip, Cell.neg_neg', zero_ne_one, decide_false, decide_true,
        bne_self_eq_false, Bool.false_eq_true, Bool.true_bne, Bool.false_bne, Bool.not_false]

theorem coeffs_turn (b : Bool) (f : Fiber K) (l c : K) : coeffs (turnFiber b f) l c = coeffs f l c := rfl

variable {d : ℕ → Bool} {rows rows' : List (MeshRow K)} {σ : ℕ → ℕ} {mat : Mat K}

/-- New number of an unknown of a node. -/
def turnPos (σ : ℕ → ℕ) (r : ℕ) : ℕ := 2 * σ (r / 2) + r % 2

/-- Is the unknown a rotation on a reversed fiber? -/
def turnSign (d : ℕ → Bool) (rows : List (MeshRow K)) (r : ℕ) : Bool := decide (r % 2 = 1) && turnedAt d rows (r / 2)

/-- What one beam adds, after reversal. -/
theorem Spec.TurnedMesh.beamVal (h : TurnedMesh d rows rows' σ) (hb : BeamsCyclic rows) {b : Beam K} (hbm : IsBeamOf mat rows b) (k : Coeffs K)
    {r s : ℕ} (hr : r < 2 * rows.length) (hs : s < 2 * rows.length) :
    Fibermat.beamVal (turnBeam d rows σ b).i (turnBeam d rows σ b).j k (turnPos σ r) (turnPos σ s) =
      Cell.flip (turnSign d rows r != turnSign d rows s) (Fibermat.beamVal b.i b.j k r s) := by
  obtain ⟨p, q, h1, h2, h3, -, -, -⟩ := hbm.rows
  have hlt := hbm.lt
  have hi : b.i < rows.length := (List.getElem?_eq_some_iff.1 h1).1
  have hj : b.j < rows.length := (List.getElem?_eq_some_iff.1 h2).1
  obtain ⟨-, q0, hq0, hf⟩ := turned_beam_next hb h1 h3 hlt
  rw [h2] at hq0; cases hq0
  have ti : turnedAt d rows b.i = d p.fiber.toNat := turnedAt_eq h1
  have tj : turnedAt d rows b.j = d p.fiber.toNat := by rw [turnedAt_eq h2, hf]
  have he : r % 2 < 2 := by omega
  have hg : s % 2 < 2 := by omega
  have ha : r / 2 < rows.length := by omega
  have hc : s / 2 < rows.length := by omega
  have er : 2 * (r / 2) + r % 2 = r := by omega
  have es : 2 * (s / 2) + s % 2 = s := by omega
  have inj : ∀ x y, x < rows.length → y < rows.length → (σ x = σ y ↔ x = y) := fun x y hx hy => ⟨h.inj x y hx hy, fun e => by rw [e]⟩
  have key : Fibermat.beamVal (turnBeam d rows σ b).i (turnBeam d rows σ b).j k (turnPos σ r) (turnPos σ s) =
      Cell.flip (d p.fiber.toNat && (decide (r % 2 = 1) != decide (s % 2 = 1))) (Fibermat.beamVal b.i b.j k r s) := by
    unfold turnBeam turnPos
    rw [ti]
    cases hd : d p.fiber.toNat with
    | false =>
      simp only [Bool.false_eq_true, if_false, Bool.false_and]
      rw [beamVal_same k he hg (inj _ _ hi ha) (inj _ _ hj ha) (inj _ _ hi hc) (inj _ _ hj hc), er, es]
      rfl
    | true =>
      simp only [if_true, Bool.true_and]
      rw [beamVal_same k he hg (inj _ _ hj ha) (inj _ _ hi ha) (inj _ _ hj hc) (inj _ _ hi hc), beamVal_turn k he hg (by omega), er, es]
  rw [key]
  by_cases hz : (b.i ≠ r / 2 ∧ b.j ≠ r / 2) ∨ (b.i ≠ s / 2 ∧ b.j ≠ s / 2)
  · have := beamVal_zero (i := b.i) (j := b.j) k he hg hz
    rw [er, es] at this
    rw [this]
    exact (Cell.flip_zero _).trans (Cell.flip_zero _).symm
  · have hr' : turnedAt d rows (r / 2) = d p.fiber.toNat := by
      by_cases e : b.i = r / 2
      · rw [← e, ti]
      · by_cases e' : b.j = r / 2
        · rw [← e', tj]
        · exact absurd (Or.inl ⟨e, e'⟩) hz
    have hs' : turnedAt d rows (s / 2) = d p.fiber.toNat := by
      by_cases e : b.i = s / 2
      · rw [← e, ti]
      · by_cases e' : b.j = s / 2
        · rw [← e', tj]
        · exact absurd (Or.inr ⟨e, e'⟩) hz
    unfold turnSign
    rw [hr', hs']
    congr 1
    cases d p.fiber.toNat <;> simp

theorem npMin_perm {l l' : List K} (h : l'.Perm l) {a a' : K} (ha : npMin l = .ok a) (ha' : npMin l' = .ok a') : a' = a := by
  obtain ⟨h1, h2⟩ := npMin_le ha
  obtain ⟨h3, h4⟩ := npMin_le ha'
  exact le_antisymm (h4 _ (h.mem_iff.2 h1)) (h2 _ (h.mem_iff.1 h3))

theorem npMax_perm {l l' : List K} (h : l'.Perm l) {a a' : K} (ha : npMax l = .ok a) (ha' : npMax l' = .ok a') : a' = a := by
  obtain ⟨h1, h2⟩ := npMax_ge ha
  obtain ⟨h3, h4⟩ := npMax_ge ha'
  exact le_antisymm (h2 _ (h.mem_iff.1 h3)) (h4 _ (h.mem_iff.2 h1))

theorem zip_map_self {α β : Type} (F : α → β) (l : List α) : l.zip (l.map F) = l.map (fun b => (b, F b)) := by
  induction l with
  | nil => rfl
  | cons a t ih => simp [ih]

/-- Lists of beams with their rescaled lengths, and those of the reversed mesh. -/
theorem turned_lengths {bs bs' : List (Beam K)} {lmin lmax : Option K} {ls ls' : List K} {ψ : Beam K → Beam K} (hψ : ∀ b, (ψ b).l = b.l)
    (hperm : bs'.Perm (bs.map ψ)) (hr : rescale lmin lmax (bs.map (·.l)) = .ok ls) (hr' : rescale lmin lmax (bs'.map (·.l)) = .ok ls') :
    ∃ F : K → K, bs.zip ls = bs.map (fun b => (b, F b.l)) ∧ (bs'.zip ls').Perm (bs.map (fun b => (ψ b, F b.l))) := by
  obtain ⟨a, b, lo, hi, h1, h2, h3, h4, rfl⟩ := rescale_eq hr
  obtain ⟨a', b', lo', hi', g1, g2, g3, g4, rfl⟩ := rescale_eq hr'
  have hp : (bs'.map (·.l)).Perm (bs.map (·.l)) := by
    refine (hperm.map (·.l)).trans (List.Perm.of_eq ?_)
    rw [List.map_map]
    exact List.map_congr_left (fun b _ => hψ b)
  have ea := npMin_perm hp h1 g1
  have eb := npMax_perm hp h2 g2
  subst ea eb h3 h4 g3 g4
  refine ⟨interp2 (min a' (lmin.getD a')) (max b' (lmax.getD b')) (lmin.getD a') (lmax.getD b'), ?_, ?_⟩
  · rw [List.map_map, zip_map_self]; rfl
  · rw [List.map_map, zip_map_self]
    refine (hperm.map _).trans (List.Perm.of_eq ?_)
    rw [List.map_map]
    refine List.map_congr_left (fun b _ => ?_)
    simp only [Function.comp, hψ]

theorem turnBeam_l (b : Beam K) : (turnBeam d rows σ b).l = b.l := by unfold turnBeam; split <;> rfl

theorem coeffs_turnBeam (b : Beam K) (l c : K) : coeffs (turnBeam d rows σ b).fiber l c = coeffs b.fiber l c := by
  unfold turnBeam; split
  · exact coeffs_turn _ _ _ _
  · rfl

/-- The beams of a call of `stiffness`, with their lengths. -/
theorem assembled_zip {mesh : Mesh K} {lmin lmax : Option K} {c : K} {bs : List (Beam K)} {ls : List K}
    (hb : beams mat mesh.rows = .ok bs) (hr : rescale lmin lmax (bs.map (·.l)) = .ok ls) :
    Assembled mat mesh.rows c ⟨2 * mesh.rows.length, 2 * mesh.rows.length,
      (bs.zip ls).flatMap (fun p => beamEntries p.1.i p.1.j (coeffs p.1.fiber p.2 c))⟩ (bs.zip ls) := by
  obtain ⟨h1, h2, h3⟩ := beams_spec hb
  have hlen : ls.length = bs.length := by simpa using rescale_length hr
  have hmap : (bs.zip ls).map Prod.fst = bs := List.map_fst_zip (by omega)
  refine ⟨rfl, ?_, ?_, ?_⟩
  · intro p hp; exact h1 _ (List.of_mem_zip hp).1
  · intro i hi
    obtain ⟨b, hb, rfl⟩ := h2 i hi
    rw [← hmap] at hb
    obtain ⟨p, hp, rfl⟩ := List.mem_map.1 hb
    exact ⟨p, hp, rfl⟩
  · have : (bs.zip ls).map (·.1.i) = bs.map (·.i) := by
      conv_rhs => rw [← hmap]
      rw [List.map_map]; rfl
    rw [this]; exact h3

/-- The entries of the stiffness matrix of the reversed mesh. -/
theorem Spec.TurnedMesh.stiffness {mesh mesh' : Mesh K} (h : TurnedMesh d mesh.rows mesh'.rows σ) (hc : ConstraintsReciprocal mesh.rows)
    (hs : NodesSorted mesh.rows) (hs' : NodesSorted mesh'.rows) (hd : DistinctNodes mesh.rows) (hb : BeamsCyclic mesh.rows)
    (hb' : BeamsCyclic mesh'.rows) {lmin lmax : Option K} {c : K} {Km Km' : Coo (Cell K)}
    (hK : Fibermat.stiffness mat mesh lmin lmax c = .ok Km) (hK' : Fibermat.stiffness (turnMat d mat) mesh' lmin lmax c = .ok Km') :
    (∀ r s, r < 2 * mesh.rows.length → s < 2 * mesh.rows.length →
      Km'.get (turnPos σ r) (turnPos σ s) = Cell.flip (turnSign d mesh.rows r != turnSign d mesh.rows s) (Km.get r s)) ∧
    ∃ bl', Assembled (turnMat d mat) mesh'.rows c Km' bl' ∧ (PositiveLengths mesh.rows lmin lmax → ∀ p ∈ bl', 0 < p.2) := by
  obtain ⟨-, -, bs, ls, hbs, hr, rfl⟩ := stiffness_eq hK
  obtain ⟨-, -, bs', ls', hbs', hr', rfl⟩ := stiffness_eq hK'
  have hperm := h.beams hc hs hs' hd hb hb' hbs hbs'
  obtain ⟨F, e1, e2⟩ := turned_lengths (fun b => turnBeam_l b) hperm hr hr'
  refine ⟨?_, bs'.zip ls', assembled_zip hbs' hr', ?_⟩
  · intro r s hr hs
    have hg : ∀ (n : ℕ) (bl : List (Beam K × K)) (r s : ℕ),
        Coo.get ⟨n, n, bl.flatMap (fun p => beamEntries p.1.i p.1.j (coeffs p.1.fiber p.2 c))⟩ r s =
          (bl.map (fun p => Fibermat.beamVal p.1.i p.1.j (coeffs p.1.fiber p.2 c) r s)).sum := by
      intro n bl r s
      rw [cell_get_sum]
      induction bl with
      | nil => rfl
      | cons p t ih =>
        simp only [List.flatMap_cons, List.map_append, List.sum_append, List.map_cons, List.sum_cons, ih]
        rfl
    rw [hg, hg, e1, ((e2.map _).sum_eq), List.map_map, List.map_map, ← Cell.flip_sum, List.map_map]
    congr 1
    refine List.map_congr_left ?_
    intro b hbm
    simp only [Function.comp, coeffs_turnBeam]
    exact h.beamVal hb ((beams_spec hbs).1 b hbm) _ hr hs
  · intro hpos p hp
    obtain ⟨b, hbm, rfl⟩ := List.mem_map.1 (e2.mem_iff.1 hp)
    have : (b, F b.l) ∈ bs.zip ls := by rw [e1]; exact List.mem_map.2 ⟨b, hbm, rfl⟩
    exact rescale_pos hpos hbs hr _ (List.of_mem_zip this).2

/-! ### Contacts -/

/-- A contact of the reversed mesh. -/
def turnContact (σ : ℕ → ℕ) (x : Contact K) : Contact K := { x with i := σ x.i, j := σ x.j }

theorem placement_other {net : List (NetRow K)} {place : ℕ → ℕ} (h : Placement net rows place) : OtherFiber rows := by
  intro i j r p hr hp hc hij
  have hj := (List.getElem?_eq_some_iff.1 hp).1
  obtain ⟨k, row, hk, ⟨rfl, e1, c1⟩ | ⟨rfl, e1, c1⟩⟩ := placement_cases h hr
  · by_cases hAB : row.A = row.B
    · rw [if_pos hAB] at c1; omega
    · rw [if_neg hAB] at c1
      obtain ⟨b, hb, eb, -⟩ := h.endB k row hk
      have : j = place (2 * k + 1) := by omega
      rw [← this, hp] at hb; cases hb
      rw [e1.fiber, eb.fiber]; exact hAB
  · by_cases hAB : row.A = row.B
    · rw [if_pos hAB] at c1; omega
    · rw [if_neg hAB] at c1
      obtain ⟨b, hb, eb, -⟩ := h.endA k row hk
      have : j = place (2 * k) := by omega
      rw [← this, hp] at hb; cases hb
      rw [e1.fiber, eb.fiber]; exact fun e => hAB e.symm

theorem Spec.TurnedMesh.height (h : TurnedMesh d rows rows' σ) {i : ℕ} (hi : i < rows.length) :
    nodeHeight rows' (σ i) = nodeHeight rows i ∧ nodeThick (turnMat d mat) rows' (σ i) = nodeThick mat rows i := by
  have hr : rows[i]? = some rows[i] := List.getElem?_eq_getElem hi
  obtain ⟨r', hr', e1, -, -, -, e5, -⟩ := h.node i _ hr
  constructor
  · simp [nodeHeight, hr, hr', e5]
  · simp only [nodeThick, hr, hr', Option.bind_some, e1, getElem?_turnMat, Option.map_map]
    rfl

theorem Spec.TurnedMesh.contact (h : TurnedMesh d rows rows' σ) (hs' : NodesSorted rows') (hs : NodesSorted rows) (ho : OtherFiber rows)
    {t t' : List K} (ht : nodeThickness mat rows = .ok t) (ht' : nodeThickness (turnMat d mat) rows' = .ok t') {x : Contact K}
    (hx : IsContact rows t x) : IsContact rows' t' (turnContact σ x) := by
  have hle := hx.le
  obtain ⟨i1, i2, -, -, h3, h4⟩ := contact_data ht hx
  obtain ⟨r, p, g1, g2, g3, g4, g5, -, -⟩ := hx.rows
  obtain ⟨r', hr', a1, -, -, -, a5, a6⟩ := h.node _ r g1
  obtain ⟨p', hp', b1, -, -, -, b5, -⟩ := h.node _ p g2
  refine ⟨?_, r', p', hr', hp', ?_, ?_, ?_, ?_, ?_⟩
  · show σ x.i ≤ σ x.j
    by_cases e : x.i = x.j
    · rw [e]
    · have hne := ho _ _ r p g1 g2 g3 e
      have hlt := sorted_fiber hs g1 g2 hle
      by_contra hcon
      have := sorted_fiber hs' hp' hr' (by omega)
      omega
  · rw [a6, g3, Int.toNat_natCast]; rfl
  · show x.zi = _; rw [g4, a5]
  · show x.zj = _; rw [g5, b5]
  · show t'[σ x.i]? = some x.hi
    rw [nodeThick_eq ht' (by rw [h.count]; exact h.lt _ i1), (h.height i1).2, h3]
  · show t'[σ x.j]? = some x.hj
    rw [nodeThick_eq ht' (by rw [h.count]; exact h.lt _ i2), (h.height i2).2, h4]

theorem isContact_unique {t : List K} {x y : Contact K} (hx : IsContact rows t x) (hy : IsContact rows t y) (h : x.i = y.i) : x = y := by
  obtain ⟨r, p, h1, h2, h3, h4, h5, h6, h7⟩ := hx.rows
  obtain ⟨r', p', g1, g2, g3, g4, g5, g6, g7⟩ := hy.rows
  obtain ⟨i, j, zi, zj, hi, hj⟩ := x
  obtain ⟨i', j', zi', zj', hi', hj'⟩ := y
  simp only at *
  subst h
  rw [h1] at g1; cases g1
  have : j = j' := by omega
  subst this
  rw [h2] at g2; cases g2
  rw [h6] at g6; cases g6
  rw [h7] at g7; cases g7
  rw [h4, h5, g4, g5]

/-- The contacts of the reversed mesh are the reversed contacts. -/
theorem Spec.TurnedMesh.contacts (h : TurnedMesh d rows rows' σ) (hc : ConstraintsReciprocal rows) (hs : NodesSorted rows)
    (hs' : NodesSorted rows') (ho : OtherFiber rows) (ho' : OtherFiber rows') {cs cs' : ConstraintSys K} {t t' : List K}
    {l l' : List (Contact K)} (hl : Contacts mat rows cs t l) (hl' : Contacts (turnMat d mat) rows' cs' t' l') :
    l'.Perm (l.map (turnContact σ)) := by
  obtain ⟨τ, hτ, e1, e2⟩ := h.symm hc
  have hmem : ∀ x ∈ l, turnContact σ x ∈ l' := by
    intro x hx
    have hX := h.contact hs' hs ho hl.thick hl'.thick (hl.contact x hx)
    have hle := hX.le
    obtain ⟨r, p, g1, g2, g3, -⟩ := hX.rows
    obtain ⟨y, hy, he⟩ := hl'.all _ r g1 (by omega)
    rw [isContact_unique hX (hl'.contact y hy) he.symm]
    exact hy
  have hmem' : ∀ x ∈ l', turnContact τ x ∈ l := by
    intro x hx
    have ht := hl.thick
    rw [← turnMat_turn d mat] at ht
    have hX := Spec.TurnedMesh.contact hτ hs hs' ho' hl'.thick ht (hl'.contact x hx)
    have hle := hX.le
    obtain ⟨r, p, g1, g2, g3, -⟩ := hX.rows
    obtain ⟨y, hy, he⟩ := hl.all _ r g1 (by omega)
    rw [isContact_unique hX (hl.contact y hy) he.symm]
    exact hy
  refine (List.perm_ext_iff_of_nodup (List.Nodup.of_map _ hl'.distinct) ?_).2 ?_
  · refine List.Nodup.map_on ?_ (List.Nodup.of_map _ hl.distinct)
    intro x hx y hy e
    have e3 : σ x.i = σ y.i := congrArg Contact.i e
    have l1 := (contact_data hl.thick (hl.contact x hx)).1
    have l2 := (contact_data hl.thick (hl.contact y hy)).1
    exact isContact_unique (hl.contact x hx) (hl.contact y hy) (h.inj _ _ l1 l2 e3)
  · intro x
    constructor
    · intro hx
      refine List.mem_map.2 ⟨_, hmem' x hx, ?_⟩
      obtain ⟨l1, l2, -⟩ := contact_data hl'.thick (hl'.contact x hx)
      rw [h.count] at l1 l2
      simp only [turnContact, e2 _ l1, e2 _ l2]
    · intro hx
      obtain ⟨y, hy, rfl⟩ := List.mem_map.1 hx
      exact hmem y hy

/-- The top is the same. -/
theorem Spec.TurnedMesh.top (h : TurnedMesh d rows rows' σ) {Z Z' : K} (hZ : IsTop mat rows Z) (hZ' : IsTop (turnMat d mat) rows' Z') :
    Z' = Z := by
  obtain ⟨⟨i, hi, e⟩, hall⟩ := hZ
  obtain ⟨⟨i', hi', e'⟩, hall'⟩ := hZ'
  obtain ⟨τ, t1, t2, -⟩ := inverse_of_inj h.lt h.inj
  rw [h.count] at hi'
  apply le_antisymm
  · obtain ⟨x1, x2⟩ := h.height (mat := mat) (t1 i' hi')
    rw [t2 i' hi'] at x1 x2
    rw [e', x1, x2]
    exact hall _ (t1 i' hi')
  · obtain ⟨x1, x2⟩ := h.height (mat := mat) hi
    rw [e, ← x1, ← x2]
    exact hall' _ (by rw [h.count]; exact h.lt i hi)

/-! ### The system -/

/-- New number of an unknown: of a node, or of contact `k` becoming contact `κ k`. -/
def turnIndex (N : ℕ) (σ κ : ℕ → ℕ) (r : ℕ) : ℕ := if r < N then turnPos σ r else N + (3 * κ ((r - N) / 3) + (r - N) % 3)

/-- Unknowns counted with the other sign. -/
def turnFlip (d : ℕ → Bool) (rows : List (MeshRow K)) (N r : ℕ) : Bool := decide (r < N) && turnSign d rows r

/-- The system of a mesh with nodes numbered otherwise, some unknowns of nodes being counted with the other sign. -/
theorem renamed_system {mat' : Mat K} {mesh mesh' : Mesh K} (hcount : mesh'.rows.length = mesh.rows.length)
    (hσlt : ∀ i, i < mesh.rows.length → σ i < mesh.rows.length)
    (hσinj : ∀ i j, i < mesh.rows.length → j < mesh.rows.length → σ i = σ j → i = j) {sign : ℕ → Bool} (hsign : ∀ s, s % 2 = 0 → sign s = false)
    {lmin lmax : Option K} {c : K}
    {Km Km' : Coo (Cell K)} (hK : stiffness mat mesh lmin lmax c = .ok Km) (hK' : stiffness mat' mesh' lmin lmax c = .ok Km')
    (hP : ∀ r s, r < 2 * mesh.rows.length → s < 2 * mesh.rows.length →
      Km'.get (turnPos σ r) (turnPos σ s) = Cell.flip (sign r != sign s) (Km.get r s))
    {cs cs' : ConstraintSys K} (hZ : cs'.Z = cs.Z)
    {t t' : List K} {l l' : List (Contact K)} (hl : Contacts mat mesh.rows cs t l) (hl' : Contacts mat' mesh'.rows cs' t' l')
    (hperm : l'.Perm (l.map (turnContact σ))) :
    ∃ κ : ℕ → ℕ, (∀ (k : ℕ) (x : Contact K), l[k]? = some x → l'[κ k]? = some (turnContact σ x)) ∧
      Renamed (assemble Km cs) (assemble Km' cs') (turnIndex (2 * mesh.rows.length) σ κ) (fun r => decide (r < 2 * mesh.rows.length) && sign r) := by
  have hlen : l'.length = l.length := by simpa using hperm.length_eq
  have hnd' : l'.Nodup := List.Nodup.of_map _ hl'.distinct
  have hex : ∀ k, k < l.length → ∃ k', k' < l.length ∧ l'[k']? = (l[k]?).map (turnContact σ) := by
    intro k hk
    have : turnContact σ l[k] ∈ l' := hperm.mem_iff.2 (List.mem_map_of_mem (List.getElem_mem hk))
    obtain ⟨k', hk'⟩ := List.mem_iff_getElem?.1 this
    refine ⟨k', by rw [← hlen]; exact (List.getElem?_eq_some_iff.1 hk').1, ?_⟩
    rw [hk', List.getElem?_eq_getElem hk]; rfl
  classical
  let κ : ℕ → ℕ := fun k => if hk : k < l.length then Classical.choose (hex k hk) else 0
  have hκ : ∀ k, k < l.length → κ k < l.length ∧ l'[κ k]? = (l[k]?).map (turnContact σ) := by
    intro k hk
    simp only [κ, dif_pos hk]
    exact Classical.choose_spec (hex k hk)
  have hκi : ∀ j k, j < l.length → k < l.length → κ j = κ k → j = k := by
    intro j k hj hk e
    have e1 := (hκ j hj).2
    have e2 := (hκ k hk).2
    rw [e, e2, List.getElem?_eq_getElem hj, List.getElem?_eq_getElem hk] at e1
    simp only [Option.map_some, Option.some.injEq] at e1
    have e3 : σ (l[k]).i = σ (l[j]).i := congrArg Contact.i e1
    have l1 := (contact_data hl.thick (hl.contact _ (List.getElem_mem hj))).1
    have l2 := (contact_data hl.thick (hl.contact _ (List.getElem_mem hk))).1
    have e4 := hσinj _ _ l2 l1 e3
    have hinj := List.nodup_iff_injective_getElem.1 hl.distinct
    have := @hinj ⟨j, by simpa using hj⟩ ⟨k, by simpa using hk⟩ (by simp [e4])
    simpa using this
  have hN : Km.nrows = 2 * mesh.rows.length := by
    obtain ⟨-, -, bs, ls, -, -, rfl⟩ := stiffness_eq hK; rfl
  have hN' : Km'.nrows = 2 * mesh.rows.length := by
    obtain ⟨-, -, bs, ls, -, -, rfl⟩ := stiffness_eq hK'; rw [← hcount]
  have hnC : cs.C.nrows = 3 * l.length := by rw [hl.C]
  have hnC' : cs'.C.nrows = 3 * l.length := by rw [hl'.C, ← hlen]
  generalize hNN : 2 * mesh.rows.length = N at *
  have hn : (assemble Km cs).n = N + 3 * l.length := by unfold Sys.n assemble; simp only [hN, hnC]
  have pos_lt : ∀ r, r < N → turnPos σ r < N := by
    intro r hr
    have := hσlt (r / 2) (by omega)
    unfold turnPos; omega
  have pos_inj : ∀ r s, r < N → s < N → turnPos σ r = turnPos σ s → r = s := by
    intro r s hr hs e
    unfold turnPos at e
    have := hσinj (r / 2) (s / 2) (by omega) (by omega) (by omega)
    omega
  have idx_node : ∀ r, r < N → turnIndex N σ κ r = turnPos σ r := fun r hr => by unfold turnIndex; rw [if_pos hr]
  have idx_contact : ∀ k e, e < 3 → turnIndex N σ κ (N + (3 * k + e)) = N + (3 * κ k + e) := by
    intro k e he
    unfold turnIndex
    rw [if_neg (by omega)]
    have e1 : (N + (3 * k + e) - N) / 3 = k := by omega
    have e2 : (N + (3 * k + e) - N) % 3 = e := by omega
    rw [e1, e2]
  have split : ∀ r, r < N + 3 * l.length → r < N ∨ ∃ k e, k < l.length ∧ e < 3 ∧ r = N + (3 * k + e) := by
    intro r hr
    rcases Nat.lt_or_ge r N with h | h
    · exact Or.inl h
    · exact Or.inr ⟨(r - N) / 3, (r - N) % 3, by omega, by omega, by omega⟩
  have flip_node : ∀ r, r < N → (decide (r < N) && sign r) = sign r := fun r hr => by simp [hr]
  have flip_contact : ∀ r, N ≤ r → (decide (r < N) && sign r) = false := fun r hr => by simp [Nat.not_lt.2 hr]
  -- entries of the contact matrix
  have centry : ∀ k e s, k < l.length → e < 3 → s < N →
      cs'.C.get (3 * κ k + e) (turnPos σ s) = sg (sign s) (cs.C.get (3 * k + e) s) := by
    intro k e s hk he hsN
    have hx : l[k]? = some l[k] := List.getElem?_eq_getElem hk
    have hx' : l'[κ k]? = some (turnContact σ l[k]) := by rw [(hκ k hk).2, hx]; rfl
    obtain ⟨l1, l2, -⟩ := contact_data hl.thick (hl.contact _ (List.getElem_mem hk))
    rw [hl.entry hx he (by omega), hl'.entry hx' he (by rw [hcount, hNN]; exact pos_lt s hsN)]
    have key : ∀ i, i < mesh.rows.length → (2 * σ i = turnPos σ s ↔ 2 * i = s) := by
      intro i hi
      unfold turnPos
      constructor
      · intro e
        have := hσinj i (s / 2) hi (by omega) (by omega)
        omega
      · intro e
        have : s / 2 = i := by omega
        rw [this]; omega
    have zero : ∀ i, i < mesh.rows.length → sg (sign s) (if 2 * i = s then (1 : K) else 0) = if 2 * i = s then 1 else 0 := by
      intro i hi
      by_cases e : 2 * i = s
      · have : sign s = false := by
          exact hsign s (by omega)
        rw [this]; rfl
      · rw [if_neg e]; exact sg_zero _
    have neg : ∀ b (x : K), sg b (-x) = - sg b x := fun b x => by cases b <;> simp [sg]
    have sub : ∀ b (x y : K), sg b (x - y) = sg b x - sg b y := fun b x y => by cases b <;> simp [sg]; ring
    have ei : (turnContact σ l[k]).i = σ (l[k]).i := rfl
    have ej : (turnContact σ l[k]).j = σ (l[k]).j := rfl
    rw [ei, ej]
    simp only [key _ l1, key _ l2]
    split
    · rw [neg, zero _ l1]
    · split
      · rw [sub, zero _ l1, zero _ l2]
      · rw [zero _ l2]
  refine ⟨κ, ?_, ?_, ?_, ?_, ?_, ?_, ?_, ?_, ?_, ?_⟩
  · intro k x hx
    rw [(hκ k (List.getElem?_eq_some_iff.1 hx).1).2, hx]; rfl
  · simp only [assemble, hN, hN']
  · simp only [assemble, hnC, hnC']
  · intro r hr
    rw [hn] at hr ⊢
    rcases split r hr with h1 | ⟨k, e, hk, he, rfl⟩
    · rw [idx_node r h1]
      have := pos_lt r h1
      omega
    · rw [idx_contact k e he]
      have := (hκ k hk).1
      omega
  · intro r s hr hs e
    rw [hn] at hr hs
    rcases split r hr with h1 | ⟨k, e1, hk, he1, rfl⟩ <;> rcases split s hs with h2 | ⟨j, e2, hj, he2, rfl⟩
    · rw [idx_node r h1, idx_node s h2] at e
      exact pos_inj r s h1 h2 e
    · rw [idx_node r h1, idx_contact j e2 he2] at e
      have := pos_lt r h1
      omega
    · rw [idx_node s h2, idx_contact k e1 he1] at e
      have := pos_lt s h2
      omega
    · rw [idx_contact k e1 he1, idx_contact j e2 he2] at e
      have := hκi k j hk hj (by omega)
      subst this
      omega
  · intro r h1 h2
    exact flip_contact r (by simpa only [assemble, hN] using h1)
  · intro r s hr hs
    rw [hn] at hr hs
    rcases split r hr with h1 | ⟨k, e1, hk, he1, rfl⟩ <;> rcases split s hs with h2 | ⟨j, e2, hj, he2, rfl⟩
    · rw [idx_node r h1, idx_node s h2, flip_node r h1, flip_node s h2]
      simp only [assemble, hN, hN', h1, h2, pos_lt r h1, pos_lt s h2, if_true]
      exact hP r s h1 h2
    · rw [idx_node r h1, idx_contact j e2 he2, flip_node r h1, flip_contact _ (by omega)]
      have n1 : ¬ N + (3 * j + e2) < N := by omega
      have n2 : ¬ N + (3 * κ j + e2) < N := by omega
      simp only [assemble, hN, hN', h1, pos_lt r h1, n1, n2, if_true, if_false, Nat.add_sub_cancel_left, Bool.bne_false]
      rw [centry j e2 r hj he2 h1, Cell.flip_fin]
    · rw [idx_node s h2, idx_contact k e1 he1, flip_node s h2, flip_contact _ (by omega)]
      have n1 : ¬ N + (3 * k + e1) < N := by omega
      have n2 : ¬ N + (3 * κ k + e1) < N := by omega
      simp only [assemble, hN, hN', h2, pos_lt s h2, n1, n2, if_true, if_false, Nat.add_sub_cancel_left, Bool.false_bne]
      rw [centry k e1 s hk he1 h2, Cell.flip_fin]
    · rw [idx_contact k e1 he1, idx_contact j e2 he2, flip_contact _ (by omega), flip_contact _ (by omega)]
      have n1 : ∀ k e, ¬ N + (3 * k + e) < N := fun k e => by omega
      simp only [assemble, hN, hN', n1, if_false, bne_self_eq_false]
      rfl
  · intro r hr
    rw [hn] at hr
    rcases split r hr with h1 | ⟨k, e, hk, he, rfl⟩
    · rw [idx_node r h1]
      simp only [assemble, hN, hN', h1, pos_lt r h1, if_true]
    · rw [idx_contact k e he]
      have n1 : ∀ k e, ¬ N + (3 * k + e) < N := fun k e => by omega
      have hx : l[k]? = some l[k] := List.getElem?_eq_getElem hk
      have hx' : l'[κ k]? = some (turnContact σ l[k]) := by rw [(hκ k hk).2, hx]; rfl
      simp only [assemble, hN, hN', n1, if_false, Nat.add_sub_cancel_left, List.getD_eq_getElem?_getD, hl.bound hx he, hl'.bound hx' he, hZ]
      obtain ⟨l1, l2, -⟩ := contact_data hl.thick (hl.contact _ (List.getElem_mem hk))
      have : (σ (l[k]).i = σ (l[k]).j) ↔ ((l[k]).i = (l[k]).j) := ⟨hσinj _ _ l1 l2, fun e => by rw [e]⟩
      simp only [contactBounds, turnContact, this]
  · intro r hr
    rw [hn] at hr
    rcases split r hr with h1 | ⟨k, e, hk, he, rfl⟩
    · rw [idx_node r h1]
      simp only [assemble, hN, hN', h1, pos_lt r h1, if_true]
    · rw [idx_contact k e he]
      have n1 : ∀ k e, ¬ N + (3 * k + e) < N := fun k e => by omega
      have := (hκ k hk).1
      simp only [assemble, hN, hN', n1, if_false, Nat.add_sub_cancel_left]
      rw [hl.incr (by omega), hl'.incr (by omega)]
      have e1 : (3 * κ k + e) % 3 = e := by omega
      have e2 : (3 * k + e) % 3 = e := by omega
      rw [e1, e2]
  · simp only [assemble, hZ]

/-- The system of the reversed mesh. -/
theorem turned_system {mesh mesh' : Mesh K} (h : TurnedMesh d mesh.rows mesh'.rows σ) (hm : GoodMat mat)
    (hc : ConstraintsReciprocal mesh.rows) (hc' : ConstraintsReciprocal mesh'.rows)
    (hs : NodesSorted mesh.rows) (hs' : NodesSorted mesh'.rows) (hd : DistinctNodes mesh.rows) (hb : BeamsCyclic mesh.rows)
    (hb' : BeamsCyclic mesh'.rows) (ho : OtherFiber mesh.rows) (ho' : OtherFiber mesh'.rows) {lmin lmax : Option K} {c : K}
    {Km Km' : Coo (Cell K)} (hK : stiffness mat mesh lmin lmax c = .ok Km) (hK' : stiffness (turnMat d mat) mesh' lmin lmax c = .ok Km')
    {cs cs' : ConstraintSys K} (hC : constraint mat mesh = .ok cs) (hC' : constraint (turnMat d mat) mesh' = .ok cs')
    {t t' : List K} {l l' : List (Contact K)} (hl : Contacts mat mesh.rows cs t l) (hl' : Contacts (turnMat d mat) mesh'.rows cs' t' l') :
    ∃ κ : ℕ → ℕ, (∀ (k : ℕ) (x : Contact K), l[k]? = some x → l'[κ k]? = some (turnContact σ x)) ∧
      Renamed (assemble Km cs) (assemble Km' cs') (turnIndex (2 * mesh.rows.length) σ κ) (turnFlip d mesh.rows (2 * mesh.rows.length)) := by
  have hperm := h.contacts hc hs hs' ho ho' hl hl'
  obtain ⟨hZ1, -⟩ := C37_geometric hC hm hc
  obtain ⟨hZ2, -⟩ := C37_geometric hC' (goodMat_turn d hm) hc'
  obtain ⟨hP, -⟩ := h.stiffness hc hs hs' hd hb hb' hK hK'
  refine renamed_system h.count h.lt h.inj (sign := turnSign d mesh.rows) (fun s hs => ?_) hK hK' hP (h.top hZ1 hZ2) hl hl' hperm
  have : ¬ s % 2 = 1 := by omega
  simp [turnSign, this]

end Fibermat
