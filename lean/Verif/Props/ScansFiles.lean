import Verif.Props.Scans

/-! # C67: the files of propagators -/

namespace Qcd.tc
open Spec

theorem append_cons_inj {α : Type} {x : α} {a a' r r' : List α} (ha : x ∉ a) (ha' : x ∉ a') (h : a ++ x :: r = a' ++ x :: r') : a = a' ∧ r = r' := by
  induction a generalizing a' with
  | nil =>
    cases a' with
    | nil => simpa using h
    | cons y a' => simp at h; simp [h.1] at ha'
  | cons y a ih =>
    cases a' with
    | nil => simp at h; simp [h.1] at ha
    | cons y' a' =>
      simp only [List.cons_append, List.cons.injEq] at h
      obtain ⟨h1, h2⟩ := ih (by simp at ha; exact ha.2) (by simp at ha'; exact ha'.2) h.2
      exact ⟨by rw [h.1, h1], h2⟩

theorem name_inj {f a a' b b' : String} (ha : '_' ∉ a.toList) (ha' : '_' ∉ a'.toList) (h : f ++ a ++ "_mu_" ++ b ++ ".out" = f ++ a' ++ "_mu_" ++ b' ++ ".out") :
    a = a' ∧ b = b' := by
  have h1 := congrArg String.toList h
  simp only [String.toList_append, List.append_assoc, List.append_cancel_left_eq] at h1
  have e : "_mu_".toList = '_' :: ['m', 'u', '_'] := by decide
  rw [e] at h1
  simp only [List.cons_append] at h1
  obtain ⟨h2, h3⟩ := append_cons_inj ha ha' h1
  refine ⟨String.toList_inj.1 h2, ?_⟩
  have h4 : b.toList ++ ".out".toList = b'.toList ++ ".out".toList := by simpa using h3
  exact String.toList_inj.1 (List.append_cancel_right h4)

theorem lookup_append {L fs : Files} {n : String} {ct : Content} (hm : (n, ct) ∈ L) (hu : ∀ ct', (n, ct') ∈ L → ct' = ct) :
    Files.read (L ++ fs) n = some ct := by
  induction L with
  | nil => simp at hm
  | cons x L ih =>
    obtain ⟨n', c'⟩ := x
    by_cases hn : n = n'
    · subst hn
      simp only [Files.read, List.cons_append, List.lookup_cons_self, Option.some.injEq]
      exact hu c' (by simp)
    · have hb : (n == n') = false := by simpa using hn
      simp only [Files.read, List.cons_append, List.lookup_cons, hb]
      refine ih ?_ (fun ct' h => hu ct' (by simp [h]))
      simpa [hn] using hm

theorem forEach_writes {α : Type} {f : α → Files → Option Panic × Files} {w : α → Files}
    (hf : ∀ x fs, (f x fs).1 = none → f x fs = (none, w x ++ fs)) (l : List α) :
    ∀ {fs fs'}, forEach f l fs = (none, fs') → fs' = l.reverse.flatMap w ++ fs := by
  induction l with
  | nil => intro fs fs' h; simp only [forEach, Prod.mk.injEq, true_and] at h; simp [h]
  | cons x l ih =>
    intro fs fs' h
    simp only [forEach] at h
    rcases hx : f x fs with ⟨_ | e, fs1⟩
    · rw [hx] at h
      have h1 := hf x fs (by rw [hx])
      rw [hx] at h1
      simp only [Prod.mk.injEq, true_and] at h1
      have := ih h
      rw [this, h1]
      simp
    · rw [hx] at h; simp at h

/-- What a successful call for one temperature writes. -/
theorem propagatorAtT_writes {P : Propagators} {fmt : ℝ → String} {filename infix_ : String} {c : Config} {mu t : ℝ} {fs : Files}
    (h : (propagatorAtT P fmt filename infix_ c mu t fs).1 = none) :
    propagatorAtT P fmt filename infix_ c mu t fs = (none,
      (match c.data mu t with
        | .error _ => []
        | .ok (fieldconfig, f0) => [(filename ++ infix_ ++ fmt t ++ "_mu_" ++ fmt mu ++ ".out",
            .table (rows c (fun p => P.finite c.om p (1 / (t * c.fieldconfig.gluon)) mu f0 fieldconfig)))]) ++ fs) := by
  unfold propagatorAtT at h ⊢
  cases hd : c.data mu t with
  | error e => rw [hd] at h; simp at h
  | ok x => rfl

theorem rows_eq {c : Config} (hren : c.renpoint2 = c.renpoint * c.renpoint) (D : ℝ → ℂ) :
    rows c D = c.momenta.map (fun p => (p, renormalized D c.renpoint c.fieldconfig.gluon p)) := by
  simp only [rows, hren]
  have : ∀ (l : List ℝ) (g : ℝ → ℝ), l.zip (l.map g) = l.map (fun p => (p, g p)) := by
    intro l g; induction l with
    | nil => rfl
    | cons x l ih => simp [ih]
  rw [this]
  apply List.map_congr_left
  intro p _
  simp only [renormalized, Prod.mk.injEq, true_and]
  generalize (D c.renpoint).re = a
  generalize (D _).re = b
  simp only [div_eq_mul_inv, mul_inv, inv_inv]
  ring

/-- The text of the temperature in the name of a file. -/
noncomputable def label (fmt : ℝ → String) (k : ℕ) (t : ℝ) : String := if k = 0 then "0.0000" else fmt t

theorem label_inj {fmt : ℝ → String} {parse : String → ℝ} (hf : FourDecimals fmt parse) {c : Config}
    (hT : c.temps.Pairwise (fun x y => 1 / 10000 < y - x)) (hT0 : ∀ t ∈ c.temps.drop 1, 1 / 20000 < t) {k k' : ℕ} {t t' : ℝ}
    (hk : c.temps[k]? = some t) (hk' : c.temps[k']? = some t') (h : label fmt k t = label fmt k' t') : k = k' := by
  have hz : ∀ (k : ℕ) (t : ℝ), k ≠ 0 → c.temps[k]? = some t → fmt t ≠ "0.0000" := by
    intro k t hk0 hk hc
    have h1 := hf.accurate t
    rw [hc, hf.zero] at h1
    obtain ⟨k, rfl⟩ := Nat.exists_eq_succ_of_ne_zero hk0
    have := hT0 t (List.mem_iff_getElem?.2 ⟨k, by rw [List.getElem?_drop, add_comm]; exact hk⟩)
    rw [zero_sub, abs_neg] at h1
    linarith [le_abs_self t]
  unfold label at h
  by_cases h0 : k = 0 <;> by_cases h0' : k' = 0
  · rw [h0, h0']
  · rw [if_pos h0, if_neg h0'] at h
    exact absurd h.symm (hz k' t' h0' hk')
  · rw [if_neg h0, if_pos h0'] at h
    exact absurd h (hz k t h0 hk)
  · rw [if_neg h0, if_neg h0'] at h
    have h1 := abs_le.1 (hf.accurate t)
    have h2 := abs_le.1 (hf.accurate t')
    rw [h] at h1
    obtain ⟨a, ha⟩ := List.getElem?_eq_some_iff.1 hk
    obtain ⟨a', ha'⟩ := List.getElem?_eq_some_iff.1 hk'
    rw [List.pairwise_iff_getElem] at hT
    rcases lt_trichotomy k k' with hl | hl | hl
    · have := hT k k' a a' hl
      rw [ha, ha'] at this
      linarith [h1.1, h1.2, h2.1, h2.2]
    · exact hl
    · have := hT k' k a' a hl
      rw [ha, ha'] at this
      linarith [h1.1, h1.2, h2.1, h2.2]

theorem mu_inj {fmt : ℝ → String} {parse : String → ℝ} (hf : FourDecimals fmt parse) {l : List ℝ}
    (hT : l.Pairwise (fun x y => 1 / 10000 < y - x)) {x y : ℝ} (hx : x ∈ l) (hy : y ∈ l) (h : fmt x = fmt y) : x = y := by
  have h1 := abs_le.1 (hf.accurate x)
  have h2 := abs_le.1 (hf.accurate y)
  rw [h] at h1
  obtain ⟨k, a, ha⟩ := List.mem_iff_getElem.1 hx
  obtain ⟨k', a', ha'⟩ := List.mem_iff_getElem.1 hy
  rw [List.pairwise_iff_getElem] at hT
  rcases lt_trichotomy k k' with hl | hl | hl
  · have := hT k k' a a' hl
    rw [ha, ha'] at this
    linarith [h1.1, h1.2, h2.1, h2.2]
  · subst hl; rw [← ha, ← ha']
  · have := hT k' k a' a hl
    rw [ha, ha'] at this
    linarith [h1.1, h1.2, h2.1, h2.2]

/-- What a successful call for one chemical potential writes, oldest last. -/
noncomputable def muWrites (P : Propagators) (fmt : ℝ → String) (filename infix_ : String) (c : Config) (mu : ℝ) : Files :=
  ((c.temps.drop 1).reverse.flatMap (fun t => match c.data mu t with
    | .error _ => []
    | .ok (fieldconfig, f0) => [(filename ++ infix_ ++ fmt t ++ "_mu_" ++ fmt mu ++ ".out",
        Content.table (rows c (fun p => P.finite c.om p (1 / (t * c.fieldconfig.gluon)) mu f0 fieldconfig)))])) ++
  (match c.data mu 0 with
    | .error _ => []
    | .ok (fieldconfig, f0) => [(filename ++ infix_ ++ "0.0000" ++ "_mu_" ++ fmt mu ++ ".out",
        .table (rows c (fun p => P.zero c.om p mu f0 fieldconfig)))])

theorem compute_propagators_writes {P : Propagators} {fmt : ℝ → String} {filename infix_ : String} {c : Config} {fs fs' : Files}
    (h : compute_propagators P fmt filename infix_ c fs = (none, fs')) :
    fs' = c.chempots.reverse.flatMap (muWrites P fmt filename infix_ c) ++ fs := by
  refine forEach_writes ?_ _ h
  intro mu fs hmu
  unfold muWrites
  cases hd : c.data mu 0 with
  | error e => rw [hd] at hmu; simp at hmu
  | ok x =>
    obtain ⟨fc, f0⟩ := x
    rw [hd] at hmu
    simp only at hmu ⊢
    obtain ⟨o, fs2, h2⟩ : ∃ o fs2, forEach (propagatorAtT P fmt filename infix_ c mu) (c.temps.drop 1)
        ((filename ++ infix_ ++ "0.0000" ++ "_mu_" ++ fmt mu ++ ".out", .table (rows c (fun p => P.zero c.om p mu f0 fc))) :: fs) = (o, fs2) := ⟨_, _, rfl⟩
    rw [h2] at hmu ⊢
    simp only at hmu
    subst hmu
    have := forEach_writes (fun x fs => propagatorAtT_writes (P := P) (fmt := fmt) (filename := filename) (infix_ := infix_) (c := c) (mu := mu) (t := x) (fs := fs)) _ h2
    rw [this]
    simp

theorem mem_muWrites {P : Propagators} {fmt : ℝ → String} {filename infix_ : String} {c : Config} {mu : ℝ} (ht : c.temps ≠ [])
    (hren : c.renpoint2 = c.renpoint * c.renpoint) {n : String} {ct : Content} :
    (n, ct) ∈ muWrites P fmt filename infix_ c mu ↔ ∃ (k : ℕ) (t : ℝ) (fc : FieldConfig) (f0 : ℝ), c.temps[k]? = some t ∧
      c.maybe_corrected_data mu (temperature k t) = .ok fc f0 ∧ n = filename ++ infix_ ++ label fmt k t ++ "_mu_" ++ fmt mu ++ ".out" ∧
      ct = propagatorTable P c mu k t f0 fc := by
  obtain ⟨t0, ts, hts⟩ := List.exists_cons_of_ne_nil ht
  unfold muWrites
  rw [List.mem_append, List.mem_flatMap]
  constructor
  · rintro (⟨t, htm, h⟩ | h)
    · rw [List.mem_reverse] at htm
      obtain ⟨k, hk⟩ := List.mem_iff_getElem?.1 htm
      cases hd : c.data mu t with
      | error e => rw [hd] at h; simp at h
      | ok x =>
        obtain ⟨fc, f0⟩ := x
        rw [hd] at h
        simp only [List.mem_singleton, Prod.mk.injEq] at h
        refine ⟨k + 1, t, fc, f0, by rw [List.getElem?_drop, add_comm] at hk; exact hk, ?_, ?_, ?_⟩
        · simpa [temperature] using data_ok_iff.1 hd
        · simpa [label] using h.1
        · rw [h.2, rows_eq hren]; rfl
    · cases hd : c.data mu 0 with
      | error e => rw [hd] at h; simp at h
      | ok x =>
        obtain ⟨fc, f0⟩ := x
        rw [hd] at h
        simp only [List.mem_singleton, Prod.mk.injEq] at h
        refine ⟨0, t0, fc, f0, by simp [hts], ?_, ?_, ?_⟩
        · simpa [temperature] using data_ok_iff.1 hd
        · simpa [label] using h.1
        · rw [h.2, rows_eq hren]; rfl
  · rintro ⟨k, t, fc, f0, hk, hd, hn, hct⟩
    cases k with
    | zero =>
      right
      have hd' : c.data mu 0 = .ok (fc, f0) := data_ok_iff.2 (by simpa [temperature] using hd)
      rw [hd']
      simp only [List.mem_singleton, Prod.mk.injEq]
      exact ⟨by simpa [label] using hn, by rw [hct, rows_eq hren]; rfl⟩
    | succ k =>
      left
      have hd' : c.data mu t = .ok (fc, f0) := data_ok_iff.2 (by simpa [temperature] using hd)
      refine ⟨t, by rw [List.mem_reverse]; exact List.mem_iff_getElem?.2 ⟨k, by rw [List.getElem?_drop, add_comm]; exact hk⟩, ?_⟩
      rw [hd']
      simp only [List.mem_singleton, Prod.mk.injEq]
      exact ⟨by simpa [label] using hn, by rw [hct, rows_eq hren]; rfl⟩

/-- **C67**: for every configuration a caller can build whose temperatures and chemical potentials are more than `0.0001` apart, once
`compute_propagators` has ended there is, for each chemical potential and each temperature of the grids, a file with both numbers in its
name, and it holds the momenta of the grid with the renormalised propagator at that temperature and chemical potential, computed with
the fields and the constant of its phase. -/
theorem C67_propagator_files {tv cv mv : ℝ × ℝ × ℝ} {om rp f0i : ℝ} {fc : FieldConfig} {h : List ConfigOp} {c : Config}
    (hrun : ConfigOp.runAll h (Config.new tv cv mv om rp f0i fc) = some c) (P : Propagators) (fmt : ℝ → String) (parse : String → ℝ)
    (hf : FourDecimals fmt parse) (filename infix_ : String) (fs fs' : Files)
    (hT : c.temps.Pairwise (fun x y => 1 / 10000 < y - x)) (hT0 : ∀ t ∈ c.temps.drop 1, 1 / 20000 < t)
    (hmu : c.chempots.Pairwise (fun x y => 1 / 10000 < y - x))
    (hok : compute_propagators P fmt filename infix_ c fs = (none, fs')) (mu : ℝ) (hm : mu ∈ c.chempots) (k : ℕ) (t : ℝ) (hk : c.temps[k]? = some t) :
    ∃ fc' f0', c.maybe_corrected_data mu (temperature k t) = .ok fc' f0' ∧
      Files.read fs' (filename ++ infix_ ++ (if k = 0 then "0.0000" else fmt t) ++ "_mu_" ++ fmt mu ++ ".out")
        = some (propagatorTable P c mu k t f0' fc') := by
  obtain ⟨ht, hren, -, -⟩ := reachable_config hrun
  have hdef : Defined c mu := by
    rw [defined_iff_runs hrun]
    by_contra hcon
    exact (C65_compute_propagators_panics hrun P fmt filename infix_ fs).2 ⟨mu, hm, hcon⟩ (by rw [hok])
  obtain ⟨fc', f0', hd⟩ := hdef k t hk
  refine ⟨fc', f0', hd, ?_⟩
  rw [compute_propagators_writes hok]
  apply lookup_append
  · rw [List.mem_flatMap]
    exact ⟨mu, by simpa using hm, (mem_muWrites ht hren).2 ⟨k, t, fc', f0', hk, hd, rfl, rfl⟩⟩
  · intro ct' hct'
    rw [List.mem_flatMap] at hct'
    obtain ⟨mu', hm', hw⟩ := hct'
    obtain ⟨k', t', fc'', f0'', hk', hd', hn, hct⟩ := (mem_muWrites ht hren).1 hw
    have hpl : ∀ k t, '_' ∉ (label fmt k t).toList := by
      intro k t
      unfold label
      split
      · decide
      · exact hf.plain t
    obtain ⟨h1, h2⟩ := name_inj (f := filename ++ infix_) (hpl k t) (hpl k' t') hn
    have hkk := label_inj hf hT hT0 hk hk' h1
    have hmm := mu_inj hf hmu hm (by simpa using hm') h2
    subst hkk hmm
    rw [hk, Option.some.injEq] at hk'
    subst hk'
    rw [hd, Data.ok.injEq] at hd'
    obtain ⟨rfl, rfl⟩ := hd'
    exact hct

/-- **C67** (other files): `compute_propagators`, whether or not it panics, leaves every file with another kind of name as it was. -/
theorem C67_other_files (P : Propagators) (fmt : ℝ → String) (filename infix_ : String) (c : Config) (n : String)
    (hn : ∀ a, n ≠ filename ++ infix_ ++ a) (fs : Files) :
    Files.read (compute_propagators P fmt filename infix_ c fs).2 n = Files.read fs n := by
  have key : ∀ {α : Type} (f : α → Files → Option Panic × Files), (∀ x fs, Files.read (f x fs).2 n = Files.read fs n) →
      ∀ (l : List α) fs, Files.read (forEach f l fs).2 n = Files.read fs n := by
    intro α f hf l
    induction l with
    | nil => intro fs; rfl
    | cons x l ih =>
      intro fs
      have hx' := hf x fs
      simp only [forEach]
      rcases hx : f x fs with ⟨_ | e, fs1⟩
      · rw [hx] at hx'; simp only [ih]; exact hx'
      · rw [hx] at hx'; exact hx'
  have hcons : ∀ (b c : String) (ct : Content) (fs : Files), Files.read ((filename ++ infix_ ++ b ++ "_mu_" ++ c ++ ".out", ct) :: fs) n = Files.read fs n := by
    intro b c ct fs
    have : (n == filename ++ infix_ ++ b ++ "_mu_" ++ c ++ ".out") = false := by
      rw [beq_eq_false_iff_ne]
      have := hn (b ++ "_mu_" ++ c ++ ".out")
      simpa [String.append_assoc] using this
    simp [Files.read, List.lookup_cons, this]
  refine key _ ?_ _ _
  intro mu fs
  cases c.data mu 0 with
  | error e => rfl
  | ok x =>
    simp only
    rw [key, hcons]
    intro t fs
    unfold propagatorAtT
    cases c.data mu t with
    | error e => rfl
    | ok y => exact hcons _ _ _ _

/-- **C67** (convention): the renormalised propagator is `m² / renpoint²` at the renormalisation scale, and multiplying the propagator by
a constant does not change it. -/
theorem C67_renormalized_convention (D : ℝ → ℂ) (ren m : ℝ) (hm : m ≠ 0) (hD : (D ren).re ≠ 0) (z : ℝ) (hz : z ≠ 0) :
    renormalized D ren m (ren / m) = m ^ 2 / ren ^ 2 ∧ ∀ p, renormalized (fun q => (z : ℂ) * D q) ren m p = renormalized D ren m p := by
  constructor
  · unfold renormalized
    rw [div_mul_cancel₀ _ hm]
    field_simp
  · intro p
    simp only [renormalized, Complex.re_ofReal_mul]
    have : z * (D (p * m)).re * (1 / ren ^ 2 / (z * (D ren).re)) = (D (p * m)).re * (1 / ren ^ 2 / (D ren).re) * (z * z⁻¹) := by
      simp only [div_eq_mul_inv, mul_inv]; ring
    rw [this, mul_inv_cancel₀ hz, mul_one]

/-- **C67** (negative): with two temperatures whose first four decimals agree the file of the first is overwritten by the second: the file
named after `t₁` holds the propagator at `t₂`. -/
theorem C67_collision (P : Propagators) (fmt : ℝ → String) (filename infix_ : String) (c : Config) (fs : Files) (mu t0 t1 t2 : ℝ)
    (hc : c.correctedfieldconfig = none) (hc' : c.correctedf0 = none) (hp : c.phase_boundary = none) (hren : c.renpoint2 = c.renpoint * c.renpoint)
    (ht : c.temps = [t0, t1, t2]) (hmu : c.chempots = [mu]) (heq : fmt t1 = fmt t2) :
    Files.read (compute_propagators P fmt filename infix_ c fs).2 (filename ++ infix_ ++ fmt t1 ++ "_mu_" ++ fmt mu ++ ".out")
      = some (propagatorTable P c mu 2 t2 c.f0 c.fieldconfig) := by
  have hd : ∀ t, c.data mu t = .ok (c.fieldconfig, c.f0) := by
    intro t
    simp [Config.data, Config.maybe_corrected_data, hc, hc', hp]
  simp only [compute_propagators, hmu, forEach, ht, hd, List.drop_succ_cons, List.drop_zero, propagatorAtT, heq, Files.read, List.lookup_cons_self,
    rows_eq hren]
  rfl

/-- Grids with a step above `0.0001` that begin at or above zero meet the hypotheses of `C67_propagator_files`. -/
theorem grid_separated (vmin vmax dv : ℝ) (hdv : 1 / 10000 < dv) (hv : vmin ≤ vmax) (h0 : 0 ≤ vmin) :
    (compute_vec vmin vmax dv).Pairwise (fun x y => 1 / 10000 < y - x) ∧ ∀ t ∈ (compute_vec vmin vmax dv).drop 1, 1 / 20000 < t := by
  have hdv0 : 0 < dv := by linarith [show (0 : ℝ) < 1 / 10000 by norm_num]
  constructor
  · rw [List.pairwise_iff_getElem]
    intro i j hi hj hij
    simp only [compute_vec, List.getElem_map, List.getElem_range]
    have : (i : ℝ) + 1 ≤ j := by exact_mod_cast hij
    nlinarith
  · intro t ht
    obtain ⟨k, hk⟩ := List.mem_iff_getElem?.1 ht
    rw [List.getElem?_drop, List.getElem?_eq_some_iff] at hk
    obtain ⟨hk1, hk⟩ := hk
    simp only [compute_vec, List.getElem_map, List.getElem_range] at hk
    rw [← hk]
    push_cast
    have : (0 : ℝ) ≤ k := Nat.cast_nonneg k
    nlinarith

/-- The hypothesis on the format can be met: the number of ten-thousandths in unary notation, with a sign. -/
theorem fourDecimals_exists : ∃ fmt parse, FourDecimals fmt parse := by
  let enc : ℤ → String := fun z => if z = 0 then "0.0000" else
    if 0 < z then String.ofList (List.replicate z.toNat '1') else String.ofList ('-' :: List.replicate (-z).toNat '1')
  let dec : String → ℝ := fun s => if s = "0.0000" then 0 else
    if s.toList.head? = some '-' then -((s.toList.length - 1 : ℕ) : ℝ) / 10000 else (s.toList.length : ℝ) / 10000
  have hdec : ∀ z, dec (enc z) = (z : ℝ) / 10000 := by
    intro z
    simp only [enc, dec]
    rcases lt_trichotomy z 0 with hz | hz | hz
    · have hne : String.ofList ('-' :: List.replicate (-z).toNat '1') ≠ "0.0000" := by
        intro hc
        have := congrArg (fun s : String => s.toList.head?) hc
        simp at this
      have hz' : ((-z).toNat : ℝ) = -(z : ℝ) := by
        have : ((-z).toNat : ℤ) = -z := Int.toNat_of_nonneg (by omega)
        exact_mod_cast this
      rw [if_neg hz.ne, if_neg (not_lt.2 hz.le), if_neg hne]
      simp [hz']
    · simp [hz]
    · have hne : String.ofList (List.replicate z.toNat '1') ≠ "0.0000" := by
        intro hc
        have h1 := congrArg (fun s : String => '.' ∈ s.toList) hc
        simp [List.mem_replicate] at h1
      have hz' : (z.toNat : ℝ) = (z : ℝ) := by
        have : (z.toNat : ℤ) = z := Int.toNat_of_nonneg (by omega)
        exact_mod_cast this
      have hh : (List.replicate z.toNat '1').head? ≠ some '-' := by
        intro hc
        have := List.mem_of_mem_head? (Option.mem_def.2 hc)
        simp [List.mem_replicate] at this
      simp [hz.ne', hz, hne, hz', hh]
  refine ⟨fun x => enc (round (x * 10000)), dec, ?_, ?_, ?_⟩
  · intro x
    rw [hdec]
    have h := abs_le.1 (abs_sub_round (x * 10000))
    rw [abs_le]
    constructor <;> linarith [h.1, h.2]
  · simp [dec]
  · intro x
    simp only [enc]
    split
    · decide
    · split <;> simp [List.mem_replicate]

end Qcd.tc
