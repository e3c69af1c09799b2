import Verif.Lemmas.Assembly

/-! Lemmas on the assembly of contacts. -/

set_option linter.unusedSectionVars false
set_option linter.unusedSimpArgs false

namespace Fibermat
variable {K : Type} [Field K] [LinearOrder K]
open Spec

/-- What `constraint` computes. -/
theorem constraint_eq {mat : Mat K} {mesh : Mesh K} {cs : ConstraintSys K} (h : constraint mat mesh = .ok cs) :
    matCheck mat.frame = .ok () ∧ meshCheck mesh.frame = .ok () ∧ ∃ hs l Z, nodeThickness mat mesh.rows = .ok hs ∧
      contacts mesh.rows hs = .ok l ∧ npMax ((mesh.rows.zip hs).map (fun p => p.1.z + p.2 / 2)) = .ok Z ∧
      cs = { C := { nrows := 3 * l.length, ncols := 2 * mesh.rows.length
                    entries := l.zipIdx.flatMap (fun p => contactEntries p.2 p.1.i p.1.j) }
             H := l.flatMap (contactBounds Z)
             dH := l.flatMap (fun _ => [0, 0, 1])
             Z := Z
             mesh := { mesh with h := some hs } } := by
  unfold constraint at h
  cases h1 : matCheck mat.frame with
  | error e => rw [h1] at h; cases h
  | ok _ =>
    rw [h1] at h
    cases h2 : meshCheck mesh.frame with
    | error e => rw [h2] at h; cases h
    | ok _ =>
      rw [h2] at h
      cases h3 : nodeThickness mat mesh.rows with
      | error e => rw [h3] at h; cases h
      | ok hs =>
        rw [h3] at h
        change (contacts mesh.rows hs >>= _) = _ at h
        cases h4 : contacts mesh.rows hs with
        | error e => rw [h4] at h; cases h
        | ok l =>
          rw [h4] at h
          change (npMax ((mesh.rows.zip hs).map (fun p => p.1.z + p.2 / 2)) >>= _) = _ at h
          cases h5 : npMax ((mesh.rows.zip hs).map (fun p => p.1.z + p.2 / 2)) with
          | error e => rw [h5] at h; cases h
          | ok Z =>
            rw [h5] at h
            cases h
            exact ⟨rfl, rfl, hs, l, Z, rfl, h4, h5, rfl⟩

theorem constraint_of {mat : Mat K} {mesh : Mesh K} {hs : List K} {l : List (Contact K)} {Z : K}
    (h1 : matCheck mat.frame = .ok ()) (h2 : meshCheck mesh.frame = .ok ()) (h3 : nodeThickness mat mesh.rows = .ok hs)
    (h4 : contacts mesh.rows hs = .ok l) (h5 : npMax ((mesh.rows.zip hs).map (fun p => p.1.z + p.2 / 2)) = .ok Z) :
    constraint mat mesh = .ok
           { C := { nrows := 3 * l.length, ncols := 2 * mesh.rows.length
                    entries := l.zipIdx.flatMap (fun p => contactEntries p.2 p.1.i p.1.j) }
             H := l.flatMap (contactBounds Z)
             dH := l.flatMap (fun _ => [0, 0, 1])
             Z := Z
             mesh := { mesh with h := some hs } } := by
  unfold constraint
  rw [h1, h2, h3]
  change (contacts mesh.rows hs >>= _) = _
  rw [h4]
  change (npMax ((mesh.rows.zip hs).map (fun p => p.1.z + p.2 / 2)) >>= _) = _
  rw [h5]
  rfl

theorem nodeThickness_spec {mat : Mat K} {rows : List (MeshRow K)} {hs : List K} (h : nodeThickness mat rows = .ok hs) :
    hs.length = rows.length ∧ ∀ (i : ℕ) (r : MeshRow K), rows[i]? = some r → 0 ≤ r.fiber ∧
      ∃ f, mat.fibers[r.fiber.toNat]? = some f ∧ hs[i]? = some f.h := by
  unfold nodeThickness at h
  rw [mapM_forall₂] at h
  refine ⟨h.length_eq.symm, fun i r hr => ?_⟩
  obtain ⟨hi, hr⟩ := List.getElem?_eq_some_iff.1 hr
  have hlen := h.length_eq
  have hg := (List.forall₂_iff_get.1 h).2 i hi (by omega)
  have e : rows.get ⟨i, hi⟩ = r := hr
  rw [e] at hg
  by_cases hneg : r.fiber < 0
  · simp [hneg] at hg
  · simp only [hneg, if_false] at hg
    cases hf : mat.fibers[r.fiber.toNat]? with
    | none => simp [hf] at hg
    | some f =>
      simp only [hf, Except.ok.injEq] at hg
      refine ⟨by omega, f, rfl, ?_⟩
      rw [List.getElem?_eq_getElem (by omega : i < hs.length)]
      exact congrArg some hg.symm

/-- What is known of a contact. -/
structure IsContact (rows : List (MeshRow K)) (hs : List K) (c : Contact K) : Prop where
  le : c.i ≤ c.j
  rows : ∃ r p, rows[c.i]? = some r ∧ rows[c.j]? = some p ∧ r.constraint = (c.j : Int) ∧ c.zi = r.z ∧ c.zj = p.z ∧
    hs[c.i]? = some c.hi ∧ hs[c.j]? = some c.hj

theorem contacts_spec {rows : List (MeshRow K)} {hs : List K} {l : List (Contact K)} (hlen : hs.length = rows.length)
    (h : contacts rows hs = .ok l) :
    (∀ c ∈ l, IsContact rows hs c) ∧
    (∀ (i : ℕ) (r : MeshRow K), rows[i]? = some r → (i : Int) ≤ r.constraint → ∃ c ∈ l, c.i = i) ∧
    (l.map (·.i)).Nodup := by
  unfold contacts at h
  rw [mapM_forall₂] at h
  set L := (rows.zip hs).zipIdx.filter (fun p => (p.2 : Int) ≤ p.1.1.constraint) with hL
  have hR : ∀ (p : (MeshRow K × K) × ℕ) (c : Contact K), p ∈ L →
      (match (rows.zip hs)[p.1.1.constraint.toNat]? with
      | some q => Except.ok ⟨p.2, p.1.1.constraint.toNat, p.1.1.z, q.1.z, p.1.2, q.2⟩
      | none => Except.error Err.keyError) = Except.ok c → c.i = p.2 ∧ IsContact rows hs c := by
    intro p c hp hc
    rw [hL, List.mem_filter, List.mem_zipIdx_iff_getElem?] at hp
    obtain ⟨hp1, hp2⟩ := hp
    have hp2 : (p.2 : Int) ≤ p.1.1.constraint := by simpa using hp2
    cases hq : (rows.zip hs)[p.1.1.constraint.toNat]? with
    | none => simp [hq] at hc
    | some q =>
      simp only [hq, Except.ok.injEq] at hc
      subst hc
      rw [List.getElem?_zip_eq_some] at hp1 hq
      refine ⟨rfl, by change p.2 ≤ p.1.1.constraint.toNat; omega, p.1.1, q.1, hp1.1, hq.1, ?_, rfl, rfl, hp1.2, hq.2⟩
      change p.1.1.constraint = (p.1.1.constraint.toNat : Int); omega
  have hlen2 := h.length_eq
  refine ⟨?_, ?_, ?_⟩
  · intro c hc
    obtain ⟨k, hk⟩ := List.mem_iff_getElem?.1 hc
    obtain ⟨hlt, hk⟩ := List.getElem?_eq_some_iff.1 hk
    have hg := (List.forall₂_iff_get.1 h).2 k (by omega) hlt
    have e : l.get ⟨k, hlt⟩ = c := hk
    rw [e] at hg
    exact (hR _ c (List.get_mem L ⟨k, by omega⟩) hg).2
  · intro i r hr hle
    have hi := (List.getElem?_eq_some_iff.1 hr).1
    have hmem : ((r, hs[i]'(by omega)), i) ∈ L := by
      rw [hL, List.mem_filter, List.mem_zipIdx_iff_getElem?]
      refine ⟨?_, by simpa using hle⟩
      rw [List.getElem?_zip_eq_some]
      exact ⟨hr, List.getElem?_eq_getElem _⟩
    obtain ⟨k, hk⟩ := List.mem_iff_getElem?.1 hmem
    obtain ⟨hlt', hk⟩ := List.getElem?_eq_some_iff.1 hk
    have hg := (List.forall₂_iff_get.1 h).2 k hlt' (by omega)
    refine ⟨_, List.get_mem l ⟨k, by omega⟩, ?_⟩
    have e : L.get ⟨k, hlt'⟩ = ((r, hs[i]'(by omega)), i) := hk
    have := (hR _ _ (List.get_mem L ⟨k, hlt'⟩) hg).1
    rw [this, e]
  · have e : l.map (·.i) = L.map (·.2) := by
      clear_value L
      have : ∀ (L : List ((MeshRow K × K) × ℕ)) (bs : List (Contact K)), List.Forall₂ (fun a b => b.i = a.2) L bs →
          bs.map (·.i) = L.map (·.2) := by
        intro L bs h
        induction h with
        | nil => rfl
        | cons h _ ih => simp [h, ih]
      apply this
      rw [List.forall₂_iff_get] at h ⊢
      exact ⟨h.1, fun k h1 h2 => (hR _ _ (List.get_mem L ⟨k, h1⟩) (h.2 k h1 h2)).1⟩
    rw [e]
    have hsub : (L.map (·.2)).Sublist ((rows.zip hs).zipIdx.map (·.2)) := (List.filter_sublist).map _
    refine hsub.nodup ?_
    rw [List.zipIdx_map_snd]
    exact List.nodup_range' ..

theorem contacts_total {rows : List (MeshRow K)} {hs : List K} (hlen : hs.length = rows.length)
    (hc : ConstraintsReciprocal rows) : ∃ l, contacts rows hs = .ok l := by
  apply mapM_ok_of
  intro p hp
  rw [List.mem_filter, List.mem_zipIdx_iff_getElem?, List.getElem?_zip_eq_some] at hp
  obtain ⟨⟨hp1, -⟩, hp2⟩ := hp
  obtain ⟨j, q, hj, hq, -⟩ := hc p.2 p.1.1 hp1
  have hj' := (List.getElem?_eq_some_iff.1 hq).1
  have e2 : (rows.zip hs)[p.1.1.constraint.toNat]? = some (q, hs[j]'(by omega)) := by
    rw [hj, List.getElem?_zip_eq_some]
    exact ⟨by simpa using hq, by simp⟩
  rw [e2]
  exact ⟨_, rfl⟩

theorem nodeThickness_total {mat : Mat K} {rows : List (MeshRow K)} (ho : OverFibers mat rows) :
    ∃ hs, nodeThickness mat rows = .ok hs := by
  apply mapM_ok_of
  intro r hr
  obtain ⟨h1, h2⟩ := ho r hr
  have e1 : mat.fibers[r.fiber.toNat]? = some (mat.fibers[r.fiber.toNat]'(by omega)) := by
    rw [List.getElem?_eq_getElem]
  rw [if_neg (by omega), e1]
  exact ⟨_, rfl⟩

/-! ## Rows of the contact matrix -/

theorem sum_zipIdx_single {α : Type} {M : Type} [AddCommMonoid M] (l : List α) (n k : ℕ) (f : α → M) :
    ((l.zipIdx n).map (fun p => if p.2 = n + k then f p.1 else 0)).sum = ((l[k]?).map f).getD 0 := by
  induction l generalizing n k with
  | nil => simp
  | cons a l ih =>
    simp only [List.zipIdx_cons, List.map_cons, List.sum_cons]
    cases k with
    | zero =>
      have : (l.zipIdx (n + 1)).map (fun p => if p.2 = n + 0 then f p.1 else 0) =
          (l.zipIdx (n + 1)).map (fun _ => (0 : M)) := by
        apply List.map_congr_left
        intro p hp
        have := List.le_snd_of_mem_zipIdx hp
        rw [if_neg (by omega)]
      rw [this]
      simp
    | succ k =>
      have := ih (n + 1) k
      rw [if_neg (by omega), zero_add]
      rw [show n + (k + 1) = n + 1 + k by omega, this]
      simp

theorem contact_row (N : ℕ) (l : List (Contact K)) (hN : ∀ c ∈ l, 2 * c.i < N ∧ 2 * c.j < N) {k d : ℕ} {c : Contact K}
    (hk : l[k]? = some c) (hd : d < 3) (u : ℕ → K) :
    rowDot ⟨3 * l.length, N, l.zipIdx.flatMap (fun p => contactEntries p.2 p.1.i p.1.j)⟩ (3 * k + d) u =
      if d = 0 then - u (2 * c.i) else if d = 1 then u (2 * c.i) - u (2 * c.j) else u (2 * c.j) := by
  unfold rowDot
  simp only
  rw [coo_row_dot _ _ N]
  · rw [List.filter_flatMap, sum_map_flatMap]
    have : (l.zipIdx).map (fun p => (((contactEntries p.2 p.1.i p.1.j).filter (fun e => e.1 = 3 * k + d)).map
        (fun e => e.2.2 * u e.2.1)).sum) = (l.zipIdx).map (fun p => if p.2 = 0 + k then
          (if d = 0 then - u (2 * p.1.i) else if d = 1 then u (2 * p.1.i) - u (2 * p.1.j) else u (2 * p.1.j)) else 0) := by
      apply List.map_congr_left
      intro p _
      by_cases hpk : p.2 = k
      · have e0 : 3 * p.2 = 3 * k + d ↔ d = 0 := by omega
        have e1 : 3 * p.2 + 1 = 3 * k + d ↔ d = 1 := by omega
        have e2 : 3 * p.2 + 2 = 3 * k + d ↔ d = 2 := by omega
        rw [if_pos (by omega)]
        simp only [contactEntries, List.filter_cons, List.filter_nil, e0, e1, e2]
        interval_cases d
        · simp
        · simp; ring
        · simp
      · have e0 : ¬ 3 * p.2 = 3 * k + d := by omega
        have e1 : ¬ 3 * p.2 + 1 = 3 * k + d := by omega
        have e2 : ¬ 3 * p.2 + 2 = 3 * k + d := by omega
        rw [if_neg (by omega)]
        simp [contactEntries, List.filter_cons, e0, e1, e2]
    rw [this]
    refine (sum_zipIdx_single l 0 k (fun c => if d = 0 then - u (2 * c.i) else if d = 1 then u (2 * c.i) - u (2 * c.j)
      else u (2 * c.j))).trans ?_
    rw [hk]
    rfl
  · intro e he
    obtain ⟨p, hp, he⟩ := List.mem_flatMap.1 he
    have := hN p.1 (List.fst_mem_of_mem_zipIdx hp)
    simp only [contactEntries, List.mem_cons, List.not_mem_nil, or_false] at he
    rcases he with rfl | rfl | rfl | rfl <;> simp only <;> omega

theorem flatMap3_getElem? {α β : Type} (f : α → List β) (hf : ∀ a, (f a).length = 3) (l : List α) {k d : ℕ} (hd : d < 3) :
    (l.flatMap f)[3 * k + d]? = (l[k]?).bind (fun a => (f a)[d]?) := by
  induction l generalizing k with
  | nil => simp
  | cons a l ih =>
    rw [List.flatMap_cons]
    cases k with
    | zero =>
      rw [List.getElem?_append_left (by rw [hf]; omega)]
      simp
    | succ k =>
      rw [List.getElem?_append_right (by rw [hf]; omega), hf, show 3 * (k + 1) + d - 3 = 3 * k + d by omega, ih]
      simp

theorem flatMap3_length {α β : Type} (f : α → List β) (hf : ∀ a, (f a).length = 3) (l : List α) :
    (l.flatMap f).length = 3 * l.length := by
  induction l with
  | nil => rfl
  | cons a l ih => rw [List.flatMap_cons, List.length_append, ih, hf, List.length_cons]; omega

theorem bounds_at (Z : K) (l : List (Contact K)) {k d : ℕ} {c : Contact K} (hk : l[k]? = some c) (hd : d < 3) :
    (l.flatMap (contactBounds Z))[3 * k + d]? = (contactBounds Z c)[d]? := by
  rw [flatMap3_getElem? _ (fun _ => rfl) _ hd, hk]; rfl

end Fibermat
