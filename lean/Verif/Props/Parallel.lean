import Verif.Lemmas.Parallel
import Verif.Lemmas.ChargeDensity
import Verif.Lemmas.DressingDefined
import Verif.Spec.Parallel

/-! # C121: parallel scans -/

namespace Qcd
open consts (Consts Integral)
open parallel Spec
open qcd.thermal (quark.charge_density quark.chemical_potential quark.charge_density_zero_temp quark.chemical_potential_zero_temp)

variable {X A : Type} {xs : List X}

theorem tableOf_some {g : X → Option A} : ∀ {l : List X} {ys : List A}, List.Forall₂ (fun x y => g x = some y) l ys → tableOf g l = some ys
  | _, _, .nil => rfl
  | _, _, .cons h t => by simp [tableOf, h, tableOf_some t]

theorem tableOf_none {g : X → Option A} : ∀ {l : List X} {x : X}, x ∈ l → g x = none → tableOf g l = none
  | y :: l, x, hx, h => by
    rcases List.mem_cons.1 hx with rfl | hx
    · simp [tableOf, h]
    · simp only [tableOf, tableOf_none hx h]; cases g y <;> rfl

/-- C121. A scan whose evaluations only read the statics gives the same result on every schedule, that of the loop on one thread, and leaves the statics alone. -/
theorem C121_schedule {f : X → Prog A} {k : Consts ℝ} (hf : ∀ x ∈ xs, (f x).ReadOnly) {m : ℕ} {st : Scan A xs} (h : Scan.Steps f m (.start A xs k) st) :
    st.mem = k ∧ (∀ vs, st.Returns vs → tableOf (fun x => ((f x).run k).1) xs = some vs) ∧ (st.Panics → tableOf (fun x => ((f x).run k).1) xs = none) := by
  obtain ⟨hm, hg, -⟩ := invariant hf rfl h
  refine ⟨hm, ?_, ?_⟩
  · rintro vs ⟨v, hv, rfl⟩
    refine tableOf_some (forall₂_ofFn xs v fun i => ?_)
    have := hg i
    rw [hv i] at this
    exact this
  · rintro ⟨i, hi⟩
    have := hg i
    rw [hi] at this
    exact tableOf_none (List.getElem_mem i.2) this

/-- C121. Such a scan always comes to an end: no schedule takes more steps than the loop on one thread and one more for each item, and a scan in which no thread can go on has returned or panicked. -/
theorem C121_ends {f : X → Prog A} {k : Consts ℝ} (hf : ∀ x ∈ xs, (f x).ReadOnly) {m : ℕ} {st : Scan A xs} (h : Scan.Steps f m (.start A xs k) st) :
    m ≤ (xs.map fun x => (f x).steps k + 1).sum ∧ ((¬ ∃ st', Scan.Step f st st') → (∃ vs, st.Returns vs) ∨ st.Panics) := by
  obtain ⟨hm, hg, hl⟩ := invariant hf rfl h
  constructor
  · have : (xs.map fun x => (f x).steps k + 1).sum = ∑ i : Fin xs.length, ((f xs[i]).steps k + 1) := by
      rw [← List.sum_ofFn]
      congr 1
      exact List.ext_getElem (by simp) (fun n h1 h2 => by simp)
    omega
  · intro hno
    by_cases hp : st.Panics
    · exact Or.inr hp
    · left
      have hr : ∀ i, ∃ a, st.slots i = .ready a := by
        intro i
        cases hs : st.slots i with
        | waiting => exact absurd ⟨_, .take st i hs⟩ hno
        | ready a => exact ⟨a, rfl⟩
        | panicked => exact absurd ⟨i, hs⟩ hp
        | running p =>
          cases p with
          | done a => exact absurd ⟨_, .finish st i a hs⟩ hno
          | panic => exact absurd ⟨_, .fail st i hs⟩ hno
          | load c next => exact absurd ⟨_, .load st i c next hs⟩ hno
          | store c v next => exact absurd ⟨_, .store st i c v next hs⟩ hno
      choose v hv using hr
      exact ⟨_, v, hv, rfl⟩

/-- C121. For evaluations that compute a function `g` of the item and the statics, the table is the list of the values of `g`, on every schedule, and there is no panic. -/
theorem C121_functions {f : X → Prog A} {k : Consts ℝ} (hf : ∀ x ∈ xs, (f x).ReadOnly) {g : X → A} (hg : ∀ x ∈ xs, ((f x).run k).1 = some (g x))
    {m : ℕ} {st : Scan A xs} (h : Scan.Steps f m (.start A xs k) st) : ¬ st.Panics ∧ ∀ vs, st.Returns vs → vs = xs.map g := by
  have e : ∀ l : List X, (∀ x ∈ l, ((f x).run k).1 = some (g x)) → tableOf (fun x => ((f x).run k).1) l = some (l.map g) := by
    intro l hl
    refine tableOf_some ?_
    rw [List.forall₂_map_right_iff]
    exact List.forall₂_same.2 hl
  have hs := C121_schedule hf h
  rw [e xs hg] at hs
  exact ⟨fun hp => by simpa using hs.2.2 hp, fun vs hv => by simpa using (hs.2.1 vs hv).symm⟩

theorem run_charge_density {ig : Integrator} {alg : ℝ × ℝ → Integral ℝ → Quadrature} (hig : CarriesOut ig alg) (k : Consts ℝ) (m beta mu : ℝ) :
    ((parallel.charge_density alg m beta mu).run k).1 = some (quark.charge_density ig k m beta mu) := by
  show ((charge_density_with_method alg m beta mu _ .done).run k).1 = _
  rw [density_passes k alg m beta mu]
  show some _ = some _
  unfold qcd.thermal.quark.charge_density qcd.thermal.quark.charge_density_with_method
  rw [hig]
  rfl

/-- C121. A parallel table of charge densities: no schedule panics, and whenever the table is complete it has the density at each chemical potential, in order. -/
theorem C121_charge_density {ig : Integrator} {alg : ℝ × ℝ → Integral ℝ → Quadrature} (hig : CarriesOut ig alg) (k : Consts ℝ) (m beta : ℝ) (mus : List ℝ)
    {n : ℕ} {st : Scan ℝ mus} (h : Scan.Steps (parallel.charge_density alg m beta) n (.start ℝ mus k) st) :
    ¬ st.Panics ∧ ∀ vs, st.Returns vs → vs = mus.map (quark.charge_density ig k m beta) := by
  refine C121_functions (fun mu _ => ?_) (fun mu _ => run_charge_density hig k m beta mu) h
  exact fun tol iter => density_reads alg m beta mu (.G7K15 tol iter) .done fun _ => trivial

/-- C121. The same at zero temperature. -/
theorem C121_charge_density_zero_temp (k : Consts ℝ) (m : ℝ) (mus : List ℝ)
    {n : ℕ} {st : Scan ℝ mus} (h : Scan.Steps (parallel.charge_density_zero_temp m) n (.start ℝ mus k) st) :
    ¬ st.Panics ∧ ∀ vs, st.Returns vs → vs = mus.map (quark.charge_density_zero_temp k m) := by
  refine C121_functions (fun mu _ => ?_) (fun mu _ => ?_) h
  · unfold parallel.charge_density_zero_temp
    split
    · trivial
    · exact fun _ => trivial
  · unfold parallel.charge_density_zero_temp qcd.thermal.quark.charge_density_zero_temp
    split <;> rfl

/-- C121. The same for the chemical potential at zero temperature. -/
theorem C121_chemical_potential_zero_temp (k : Consts ℝ) (m : ℝ) (ns : List ℝ)
    {n : ℕ} {st : Scan ℝ ns} (h : Scan.Steps (parallel.chemical_potential_zero_temp m) n (.start ℝ ns k) st) :
    ¬ st.Panics ∧ ∀ vs, st.Returns vs → vs = ns.map (quark.chemical_potential_zero_temp k m) := by
  refine C121_functions (fun n _ => ?_) (fun n _ => ?_) h
  · unfold parallel.chemical_potential_zero_temp
    split
    · trivial
    · exact fun _ => trivial
  · unfold parallel.chemical_potential_zero_temp qcd.thermal.quark.chemical_potential_zero_temp
    split <;> rfl

theorem run_chemical_potential {ig : Integrator} {alg : ℝ × ℝ → Integral ℝ → Quadrature} (hig : CarriesOut ig alg) (k : Consts ℝ) (m beta n : ℝ) :
    ((parallel.chemical_potential alg m beta n).run k).1 = match quark.chemical_potential ig k m beta n with | .ok x => some x | .panic => none := by
  have hd : ∀ mu i, qcd.thermal.quark.charge_density_with_method ig k m beta mu i =
      (alg (0, 1) i).answer fun t => qcd.thermal.quark.charge_density_i k ((1 - t) / t) m beta mu / (t * t) := fun mu i => hig _ _ _
  have hf : ∀ (i : Integral ℝ) mu, Passes k (fun ret : ℝ → Prog ℝ => charge_density_with_method alg m beta mu i fun y => ret (n - y))
      (n - qcd.thermal.quark.charge_density_with_method ig k m beta mu i) := by
    intro i mu ret
    rw [hd]
    exact density_passes k alg m beta mu i _
  show ((parallel.chemical_potential_with_method alg m beta n k.tol_integral k.max_iter_integral).run k).1 = _
  simp only [parallel.chemical_potential_with_method, qcd.thermal.quark.chemical_potential, qcd.thermal.quark.chemical_potential_with_method,
    consts.get_default_integration_method, consts.Integral.get_tol]
  by_cases hn : n = 0
  · simp [hn, Prog.run]
  rw [if_neg hn, if_neg hn]
  simp only [utils.find_root, utils.find_root_log]
  have e1 : ((utils.exactOps ℝ).beq (0.5 * n) n = true) ↔ 0.5 * n = n := by simp [utils.exactOps]
  have e2 : ((!(utils.exactOps ℝ).gt0 k.tol_integral) = true) ↔ ¬ 0 < k.tol_integral := by simp [utils.exactOps]
  by_cases h1 : 0.5 * n = n
  · rw [if_pos h1, if_pos (e1.2 h1)]; rfl
  rw [if_neg h1, if_neg (fun h => h1 (e1.1 h))]
  by_cases h2 : 0 < k.tol_integral
  · rw [if_pos h2, if_neg (fun h => e2.1 h h2)]
    refine Eq.trans (congrArg Prod.fst (density_passes k alg m beta (0.5 * n) _ _)) ?_
    refine Eq.trans (congrArg Prod.fst (density_passes k alg m beta n _ _)) ?_
    rw [← hd, ← hd, loop_run (hf _)]
    simp only
    cases (utils.loop (utils.exactOps ℝ) _ _ _ _ _ _ _).1 <;> rfl
  · rw [if_neg h2, if_pos (e2.2 h2)]; rfl

theorem chemical_potential_reads (alg : ℝ × ℝ → Integral ℝ → Quadrature) (m beta n : ℝ) : (parallel.chemical_potential alg m beta n).ReadOnly := by
  intro tol iter
  have hf : ∀ mu, Reads (fun ret : ℝ → Prog ℝ => charge_density_with_method alg m beta mu (.G7K15 tol iter) fun y => ret (n - y)) :=
    fun mu ret hr => density_reads alg m beta mu _ _ fun y => hr _
  show Prog.ReadOnly (if n = 0 then _ else _)
  split
  · trivial
  split
  · trivial
  split
  · refine density_reads alg m beta _ _ _ fun f0 => density_reads alg m beta _ _ _ fun f1 => loop_reads hf tol _ (fun o => ?_) _ _ _ _ _
    cases o <;> trivial
  · trivial

/-- C121. A parallel table of chemical potentials: if it is complete, each entry is what the call on one thread returns; if the scan panics, some call on one thread does. -/
theorem C121_chemical_potential {ig : Integrator} {alg : ℝ × ℝ → Integral ℝ → Quadrature} (hig : CarriesOut ig alg) (k : Consts ℝ) (m beta : ℝ) (ns : List ℝ)
    {n : ℕ} {st : Scan ℝ ns} (h : Scan.Steps (parallel.chemical_potential alg m beta) n (.start ℝ ns k) st) :
    (∀ vs, st.Returns vs → ns.map (quark.chemical_potential ig k m beta) = vs.map .ok) ∧
      (st.Panics → ∃ x ∈ ns, quark.chemical_potential ig k m beta x = .panic) := by
  obtain ⟨-, hg, -⟩ := invariant (fun x _ => chemical_potential_reads alg m beta x) rfl h
  constructor
  · rintro vs ⟨v, hv, rfl⟩
    refine List.ext_getElem (by simp) fun i h1 h2 => ?_
    have hi : i < ns.length := by simpa using h1
    have := hg ⟨i, hi⟩
    rw [hv ⟨i, hi⟩] at this
    have this : ((parallel.chemical_potential alg m beta ns[i]).run k).1 = some (v ⟨i, hi⟩) := this
    rw [run_chemical_potential hig] at this
    simp only [List.getElem_map, List.getElem_ofFn]
    cases hc : quark.chemical_potential ig k m beta ns[i] with
    | ok x => rw [hc] at this; simpa using this
    | panic => rw [hc] at this; simp at this
  · rintro ⟨i, hi⟩
    have := hg i
    rw [hi] at this
    have this : ((parallel.chemical_potential alg m beta ns[i]).run k).1 = none := this
    rw [run_chemical_potential hig] at this
    refine ⟨ns[i], List.getElem_mem _, ?_⟩
    cases hc : quark.chemical_potential ig k m beta ns[i] with
    | ok x => rw [hc] at this; simp at this
    | panic => rfl

/-! ## Setters among the evaluations -/

/-- C121. On one thread the setters do what C01 and C02 say. -/
theorem C121_setters (n : ℕ) (k : Consts ℝ) :
    (parallel.set_number_of_colors n).run k = (some (), (consts.set_number_of_colors n k).state) ∧
      (parallel.set_number_of_fermions n).run k = (some (), (consts.set_number_of_fermions n k).state) ∧
      ∀ p : Prog A, (with_colors n p).run k = p.run (withColors k n) :=
  ⟨rfl, rfl, fun _ => rfl⟩

/-- A list of two items, evaluated by the programs `p` and `q`. -/
def pick (p q : Prog A) (b : Bool) : Prog A := if b then p else q

/-- The midpoint rule with two intervals, for any method asked for. -/
noncomputable def twoPoint : ℝ × ℝ → Integral ℝ → Quadrature := fun _ _ => .ask (1 / 4) fun a => .ask (3 / 4) fun b => .result ((a + b) / 2)

/-- C121. With a call of `set_number_of_colors` on another thread the density can come out as that of no number of colours at all: the integrand reads the number of colours anew at every point. -/
theorem C121_torn {ig : Integrator} (hig : CarriesOut ig twoPoint) (k : Consts ℝ) (hk : k.nc = 3) (m beta mu : ℝ) (hb : 0 < beta) (hmu : 0 < mu) :
    ∃ (n : ℕ) (st : Scan ℝ [mu, 0]) (v : ℝ),
      Scan.Steps (fun x => if x = mu then parallel.charge_density twoPoint m beta mu else with_colors 2 (.done 0)) n (.start ℝ [mu, 0] k) st ∧
        st.Returns [v, 0] ∧ ∀ N, v ≠ quark.charge_density ig (withColors k N) m beta mu := by
  classical
  set f : ℝ → Prog ℝ := fun x => if x = mu then parallel.charge_density twoPoint m beta mu else with_colors 2 (.done 0) with hf
  have f0 : f mu = parallel.charge_density twoPoint m beta mu := by simp [hf]
  have f1 : f 0 = with_colors 2 (.done 0) := by simp [hf, hmu.ne]
  set e : ℝ → ℝ := fun q => q * q * (fermi_distribution (energy q m) beta mu - fermi_distribution (energy q m) beta (-mu)) / PI2 with he
  have epos : ∀ q, q ≠ 0 → 0 < e q := by
    intro q hq
    have hpi : 0 < PI2 := by unfold PI2; have := Real.pi_pos; positivity
    have h1 := (C13_monotone beta hb).2 (energy q m) (show -mu < mu by linarith)
    simp only at h1
    have hq2 : 0 < q * q := mul_self_pos.2 hq
    exact div_pos (mul_pos hq2 (by linarith)) hpi
  have hi : ∀ (k : Consts ℝ) q, qcd.thermal.quark.charge_density_i k q m beta mu = k.nc * e q := by
    intro k q; simp only [qcd.thermal.quark.charge_density_i, he]; ring
  -- the schedule
  have s0 : Scan.Steps f 1 (.start ℝ [mu, 0] k) (two mu 0 (.running (parallel.charge_density twoPoint m beta mu)) .waiting k) := by
    rw [start_two, ← f0]
    exact .snoc (.nil _) (take_zero _ _)
  have s1 := Scan.Steps.snoc s0 (load_zero _ _ _ _)
  have s2 := Scan.Steps.snoc s1 (load_zero _ _ _ _)
  have s3 := Scan.Steps.snoc s2 (load_zero _ _ _ _)
  have s4 := Scan.Steps.snoc s3 (take_one _ _)
  rw [f1] at s4
  obtain ⟨m5, s5⟩ := solo_one (f := f) (x := mu) (y := 0) (a := 0) _ (with_colors 2 (.done 0)) k rfl
  have s6 := s4.trans s5
  obtain ⟨m7, s7⟩ := solo_zero (f := f) (x := mu) (y := 0) (.ready 0) _ _ (show (Prog.run (.load .nc fun nc =>
    .done (((qcd.thermal.quark.charge_density_i k ((1 - 1 / 4) / (1 / 4)) m beta mu / (1 / 4 * (1 / 4))) +
      ((nc : ℝ) * ((1 - 3 / 4) / (3 / 4)) * ((1 - 3 / 4) / (3 / 4)) * (fermi_distribution (energy ((1 - 3 / 4) / (3 / 4)) m) beta mu -
        fermi_distribution (energy ((1 - 3 / 4) / (3 / 4)) m) beta (-mu)) / PI2) / (3 / 4 * (3 / 4))) / 2)) (withColors k 2)).1 = some _ from rfl)
  refine ⟨_, _, _, s6.trans s7, returns_two _ _ _, fun N hN => ?_⟩
  have hv : quark.charge_density ig (withColors k N) m beta mu = (N * e 3 / (1 / 16) + N * e (1 / 3) / (9 / 16)) / 2 := by
    unfold qcd.thermal.quark.charge_density qcd.thermal.quark.charge_density_with_method
    rw [hig]
    simp only [twoPoint, Quadrature.answer, hi]
    norm_num [withColors, consts.set_number_of_colors]
  rw [hv, hi, hk] at hN
  have hw : ((Static.get .nc (withColors k 2) : ℕ) : ℝ) * ((1 - 3 / 4) / (3 / 4)) * ((1 - 3 / 4) / (3 / 4)) * (fermi_distribution (energy ((1 - 3 / 4) / (3 / 4)) m) beta mu -
        fermi_distribution (energy ((1 - 3 / 4) / (3 / 4)) m) beta (-mu)) / PI2 = 2 * e (1 / 3) := by
    have : (Static.get .nc (withColors k 2) : ℕ) = 2 := rfl
    rw [this]
    norm_num [he]
    ring
  rw [hw] at hN
  have h3 := epos 3 (by norm_num)
  have h13 := epos (1 / 3) (by norm_num)
  norm_num at hN h13
  have hlt : (N : ℝ) < 3 := by
    by_contra hc
    rw [not_lt] at hc
    have a1 := mul_le_mul_of_nonneg_right hc h3.le
    have a2 := mul_le_mul_of_nonneg_right hc h13.le
    linarith
  have hgt : (2 : ℝ) < N := by
    by_contra hc
    rw [not_lt] at hc
    have a1 := mul_le_mul_of_nonneg_right hc h3.le
    have a2 := mul_le_mul_of_nonneg_right hc h13.le
    linarith
  have h1 : N < 3 := by exact_mod_cast hlt
  have h2 : 2 < N := by exact_mod_cast hgt
  omega

/-- C121. Two items that each call `set_number_of_colors` before they evaluate: a schedule gives the first one the density of the number of colours of the second, while the loop on one thread gives each its own. -/
theorem C121_wrong_colors (k : Consts ℝ) (m mu : ℝ) (h : |m| < |mu|) :
    let f := fun n : ℕ => with_colors n (parallel.charge_density_zero_temp m mu)
    let rho := fun n : ℕ => quark.charge_density_zero_temp (withColors k n) m mu
    (∃ (n : ℕ) (st : Scan ℝ [2, 3]), Scan.Steps f n (.start ℝ [2, 3] k) st ∧ st.Returns [rho 3, rho 3]) ∧
      (∃ (n : ℕ) (st : Scan ℝ [2, 3]), Scan.Steps f n (.start ℝ [2, 3] k) st ∧ st.Returns [rho 2, rho 3]) ∧ rho 2 ≠ rho 3 := by
  intro f rho
  have hr : ∀ (k : Consts ℝ) n, k.nc = n → ((parallel.charge_density_zero_temp m mu).run k).1 = some (rho n) := by
    intro k' n hn
    simp only [rho, parallel.charge_density_zero_temp, qcd.thermal.quark.charge_density_zero_temp]
    rw [if_neg (not_le.2 h), if_neg (not_le.2 h)]
    simp [Prog.run, Static.get, withColors, consts.set_number_of_colors, hn]
  have s0 : Scan.Steps f 1 (.start ℝ [2, 3] k) (two 2 3 (.running (f 2)) .waiting k) := by
    rw [start_two]
    exact .snoc (.nil _) (take_zero _ _)
  refine ⟨?_, ?_, ?_⟩
  · have s1 := Scan.Steps.snoc s0 (store_zero _ _ _ _ _)
    have s2 := Scan.Steps.snoc s1 (load_zero _ _ _ _)
    have s3 := Scan.Steps.snoc s2 (load_zero _ _ _ _)
    have s4 := Scan.Steps.snoc s3 (store_zero _ _ _ _ _)
    have s5 := Scan.Steps.snoc s4 (take_one _ _)
    obtain ⟨m6, s6⟩ := solo_one (f := f) (x := 2) (y := 3) (a := rho 3) (.running (parallel.charge_density_zero_temp m mu)) (f 3) (withColors k 2)
      (hr (withColors (withColors k 2) 3) 3 rfl)
    have h3 : ((f 3).run (withColors k 2)).2.nc = 3 := by
      show ((parallel.charge_density_zero_temp m mu).run (withColors (withColors k 2) 3)).2.nc = 3
      rw [Prog.run_mem]
      · rfl
      · unfold parallel.charge_density_zero_temp
        split
        · trivial
        · exact fun _ => trivial
    obtain ⟨m7, s7⟩ := solo_zero (f := f) (x := 2) (y := 3) (a := rho 3) (.ready (rho 3)) (parallel.charge_density_zero_temp m mu) ((f 3).run (withColors k 2)).2
      (hr _ 3 h3)
    exact ⟨_, _, (s5.trans s6).trans s7, returns_two _ _ _⟩
  · obtain ⟨m1, s1⟩ := solo_zero (f := f) (x := 2) (y := 3) (a := rho 2) .waiting (f 2) k (hr (withColors k 2) 2 rfl)
    have s2 := Scan.Steps.snoc (s0.trans s1) (take_one _ _)
    obtain ⟨m3, s3⟩ := solo_one (f := f) (x := 2) (y := 3) (a := rho 3) (.ready (rho 2)) (f 3) ((f 2).run k).2 (hr (withColors ((f 2).run k).2 3) 3 rfl)
    exact ⟨_, _, s2.trans s3, returns_two _ _ _⟩
  · simp only [rho, qcd.thermal.quark.charge_density_zero_temp]
    rw [if_neg (not_le.2 h), if_neg (not_le.2 h)]
    have hpi : 0 < PI2 := by unfold PI2; have := Real.pi_pos; positivity
    have hfm : 0 < fermi_momentum m mu := Def.fermi_pos h.le h.ne'
    have hs : (if mu > m then (1 : ℝ) else -1) ≠ 0 := by split <;> norm_num
    intro hc
    field_simp at hc
    norm_num [withColors, consts.set_number_of_colors] at hc

/-! ## The hypotheses can be met -/

/-- An integrator that carries out the two-point rule, and the programs in question. -/
example : ∃ ig, CarriesOut ig twoPoint := ⟨⟨fun f r i => (twoPoint r i).answer f, fun _ _ _ => 0⟩, fun _ _ _ => rfl⟩

example (m beta mu : ℝ) : (parallel.charge_density twoPoint m beta mu).ReadOnly := fun _ _ _ _ => trivial

example (k : Consts ℝ) (m mu nu : ℝ) : ∃ (n : ℕ) (st : Scan ℝ [mu, nu]) (vs : List ℝ),
    Scan.Steps (parallel.charge_density_zero_temp m) n (.start ℝ [mu, nu] k) st ∧ st.Returns vs := by
  have hr : ∀ mu, ((parallel.charge_density_zero_temp m mu).run k).1 = some (quark.charge_density_zero_temp k m mu) := by
    intro mu
    unfold parallel.charge_density_zero_temp qcd.thermal.quark.charge_density_zero_temp
    split <;> rfl
  have hk : ((parallel.charge_density_zero_temp m nu).run k).2 = k := by
    refine Prog.run_mem _ ?_ _
    unfold parallel.charge_density_zero_temp
    split
    · trivial
    · exact fun _ => trivial
  obtain ⟨a, ha⟩ := solo_one (f := parallel.charge_density_zero_temp m) (x := mu) (y := nu) .waiting _ k (hr nu)
  rw [hk] at ha
  obtain ⟨b, hb⟩ := solo_zero (f := parallel.charge_density_zero_temp m) (x := mu) (y := nu) (.ready (quark.charge_density_zero_temp k m nu)) _ k (hr mu)
  refine ⟨_, _, _, ((Scan.Steps.snoc (.nil _) ?_).trans ha).trans ((Scan.Steps.snoc (.nil _) (take_zero _ _)).trans hb), returns_two _ _ _⟩
  rw [start_two]
  exact take_one _ _

end Qcd
