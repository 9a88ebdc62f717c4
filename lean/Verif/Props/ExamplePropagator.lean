import Verif.Model.ExamplePropagator
import Verif.Spec.YmPropagators
import Verif.Spec.Overall
import Verif.Props.ThermalReal
import Verif.Lemmas.ThermalToC

/-! # C96: the program that tabulates the Yang-Mills propagators

`examples/ym_thermal_gluon_propagator.rs`. -/

namespace Qcd
open consts (Consts)
open examples.ym_thermal_gluon_propagator
open _root_.Spec (YmRow ymLongitudinal ymTransverse ymMomenta at4GeV)

/-- The propagators of the table. -/
noncomputable def ymL (ig : Integrator) (k : Consts ℝ) (r : YmRow) (p : ℝ) : ℝ :=
  (ym.thermal.gluon.propagator_l_landau ig k (r.om : ℝ) p (r.m : ℝ) (1 / ((r.mev : ℝ) / 1000)) (r.f0 : ℝ)).re

noncomputable def ymT (ig : Integrator) (k : Consts ℝ) (r : YmRow) (p : ℝ) : ℝ :=
  (ym.thermal.gluon.propagator_t_landau ig k (r.om : ℝ) p (r.m : ℝ) (1 / ((r.mev : ℝ) / 1000)) (r.f0 : ℝ)).re

/-- The vacuum propagator, in units of the mass 0.656 GeV. -/
noncomputable def ymV (p : ℝ) : ℝ := ym.gluon.propagator_landau (p ^ 2 / (656 / 1000) ^ 2) (-(876 / 1000))

theorem momenta_eq : momenta = ymMomenta := by
  have : ⌊((3 : ℝ) - 2 / 10) / (1 / 100)⌋₊ = 280 := by
    rw [Nat.floor_eq_iff (by norm_num)]
    norm_num
  rw [momenta, tc.grid, this, ymMomenta]
  refine List.map_congr_left fun j _ => ?_
  ring

theorem zip_map_self {α β : Type} (f : α → β) (l : List α) : l.zip (l.map f) = l.map fun a => (a, f a) := by
  induction l with
  | nil => rfl
  | cons a l ih => simp [ih]

theorem mev_eq {t : ℝ} {n : ℕ} (h : t = (n : ℝ) / 1000) : mev t = toString n := by
  have : t * 1000 = n := by rw [h]; ring
  rw [mev, this, Nat.floor_natCast]

theorem vacuum_eq : vacuum_vals = ymMomenta.map (at4GeV ymV) := by
  simp only [vacuum_vals, momenta_eq]
  refine List.map_congr_left fun p _ => ?_
  simp only [at4GeV, ymV, renpoint2, renpoint, mg2, mg, f0]
  rw [mul_comm (_ ^ 2) (ym.gluon.propagator_landau _ _)]
  norm_num [pow_two]

theorem body_l_eq (ig : Integrator) (k : Consts ℝ) (r : YmRow) (i : ℕ) {o : ℝ} (ho : o = r.om) (ht : temperatures.getD i 0 = (r.mev : ℝ) / 1000)
    (hm : ms_l.getD i 0 = r.m) (hf : f0s_l.getD i 0 + f0 = r.f0) :
    body_l ig k o i = (⟨"T" ++ toString r.mev ++ "L.txt", ymMomenta.map fun p => (p, at4GeV (ymL ig k r) p)⟩,
      ymMomenta.map (at4GeV (ymL ig k r)), "$T=" ++ toString r.mev ++ "$ MeV") := by
  have hv : momenta.map (fun p => (ym.thermal.gluon.propagator_l_landau ig k o p (ms_l.getD i 0) (1 / temperatures.getD i 0) (f0s_l.getD i 0 + f0)).re /
      ((ym.thermal.gluon.propagator_l_landau ig k o renpoint (ms_l.getD i 0) (1 / temperatures.getD i 0) (f0s_l.getD i 0 + f0)).re * renpoint2)) =
      ymMomenta.map (at4GeV (ymL ig k r)) := by
    rw [momenta_eq]
    refine List.map_congr_left fun p _ => ?_
    simp only [at4GeV, ymL, ho, ht, hm, hf, renpoint, renpoint2]
    rw [mul_comm ((4 : ℝ) ^ 2), show (4 : ℝ) ^ 2 = 4 * 4 by norm_num]
  simp only [body_l, hv, mev_eq ht]
  rw [momenta_eq, zip_map_self]

theorem body_t_eq (ig : Integrator) (k : Consts ℝ) (r : YmRow) (i : ℕ) {o : ℝ} (ho : o = r.om) (ht : temperatures.getD i 0 = (r.mev : ℝ) / 1000)
    (hm : ms_t.getD i 0 = r.m) (hf : f0s_t.getD i 0 + f0 = r.f0) :
    body_t ig k o i = (⟨"T" ++ toString r.mev ++ "T.txt", ymMomenta.map fun p => (p, at4GeV (ymT ig k r) p)⟩,
      ymMomenta.map (at4GeV (ymT ig k r)), "$T=" ++ toString r.mev ++ "$ MeV") := by
  have hv : momenta.map (fun p => (ym.thermal.gluon.propagator_t_landau ig k o p (ms_t.getD i 0) (1 / temperatures.getD i 0) (f0s_t.getD i 0 + f0)).re /
      ((ym.thermal.gluon.propagator_t_landau ig k o renpoint (ms_t.getD i 0) (1 / temperatures.getD i 0) (f0s_t.getD i 0 + f0)).re * renpoint2)) =
      ymMomenta.map (at4GeV (ymT ig k r)) := by
    rw [momenta_eq]
    refine List.map_congr_left fun p _ => ?_
    simp only [at4GeV, ymT, ho, ht, hm, hf, renpoint, renpoint2]
    rw [mul_comm ((4 : ℝ) ^ 2), show (4 : ℝ) ^ 2 = 4 * 4 by norm_num]
  simp only [body_t, hv, mev_eq ht]
  rw [momenta_eq, zip_map_self]

theorem blocks_l (ig : Integrator) (k : Consts ℝ) :
    [0, 1].map (body_l ig k om) ++ [body_l ig k (2 / 1000) 2] ++ [3, 4, 5].map (body_l ig k om) =
      ymLongitudinal.map fun r => (⟨"T" ++ toString r.mev ++ "L.txt", ymMomenta.map fun p => (p, at4GeV (ymL ig k r) p)⟩,
      ymMomenta.map (at4GeV (ymL ig k r)), "$T=" ++ toString r.mev ++ "$ MeV") := by
  have h0 := body_l_eq ig k ⟨121, 525 / 1000, -5 / 100 - 876 / 1000, 1 / 1000⟩ 0 (o := om) (by norm_num [om]) (by norm_num [temperatures]) (by norm_num [ms_l]) (by norm_num [f0s_l, f0])
  have h1 := body_l_eq ig k ⟨194, 175 / 1000, -130 / 100 - 876 / 1000, 1 / 1000⟩ 1 (o := om) (by norm_num [om]) (by norm_num [temperatures]) (by norm_num [ms_l]) (by norm_num [f0s_l, f0])
  have h2 := body_l_eq ig k ⟨260, 25 / 1000, -440 / 100 - 876 / 1000, 2 / 1000⟩ 2 (o := (2 / 1000 : ℝ)) (by norm_num [om]) (by norm_num [temperatures]) (by norm_num [ms_l]) (by norm_num [f0s_l, f0])
  have h3 := body_l_eq ig k ⟨290, 100 / 1000, -100 / 100 - 876 / 1000, 1 / 1000⟩ 3 (o := om) (by norm_num [om]) (by norm_num [temperatures]) (by norm_num [ms_l]) (by norm_num [f0s_l, f0])
  have h4 := body_l_eq ig k ⟨366, 350 / 1000, 120 / 100 - 876 / 1000, 1 / 1000⟩ 4 (o := om) (by norm_num [om]) (by norm_num [temperatures]) (by norm_num [ms_l]) (by norm_num [f0s_l, f0])
  have h5 := body_l_eq ig k ⟨458, 650 / 1000, 180 / 100 - 876 / 1000, 1 / 1000⟩ 5 (o := om) (by norm_num [om]) (by norm_num [temperatures]) (by norm_num [ms_l]) (by norm_num [f0s_l, f0])
  simp only [ymLongitudinal, List.map_cons, List.map_nil, List.cons_append, List.nil_append]
  rw [h0, h1, h2, h3, h4, h5]

theorem blocks_t (ig : Integrator) (k : Consts ℝ) :
    [0, 1, 2].map (body_t ig k om) ++ [3, 4, 5].map (body_t ig k om) =
      ymTransverse.map fun r => (⟨"T" ++ toString r.mev ++ "T.txt", ymMomenta.map fun p => (p, at4GeV (ymT ig k r) p)⟩,
      ymMomenta.map (at4GeV (ymT ig k r)), "$T=" ++ toString r.mev ++ "$ MeV") := by
  have h0 := body_t_eq ig k ⟨121, 675 / 1000, 5 / 100 - 876 / 1000, 1 / 1000⟩ 0 (o := om) (by norm_num [om]) (by norm_num [temperatures]) (by norm_num [ms_t]) (by norm_num [f0s_t, f0])
  have h1 := body_t_eq ig k ⟨194, 725 / 1000, 10 / 100 - 876 / 1000, 1 / 1000⟩ 1 (o := om) (by norm_num [om]) (by norm_num [temperatures]) (by norm_num [ms_t]) (by norm_num [f0s_t, f0])
  have h2 := body_t_eq ig k ⟨260, 775 / 1000, 30 / 100 - 876 / 1000, 1 / 1000⟩ 2 (o := om) (by norm_num [om]) (by norm_num [temperatures]) (by norm_num [ms_t]) (by norm_num [f0s_t, f0])
  have h3 := body_t_eq ig k ⟨290, 725 / 1000, 40 / 100 - 876 / 1000, 1 / 1000⟩ 3 (o := om) (by norm_num [om]) (by norm_num [temperatures]) (by norm_num [ms_t]) (by norm_num [f0s_t, f0])
  have h4 := body_t_eq ig k ⟨366, 800 / 1000, 50 / 100 - 876 / 1000, 1 / 1000⟩ 4 (o := om) (by norm_num [om]) (by norm_num [temperatures]) (by norm_num [ms_t]) (by norm_num [f0s_t, f0])
  have h5 := body_t_eq ig k ⟨458, 900 / 1000, 60 / 100 - 876 / 1000, 1 / 1000⟩ 5 (o := om) (by norm_num [om]) (by norm_num [temperatures]) (by norm_num [ms_t]) (by norm_num [f0s_t, f0])
  simp only [ymTransverse, List.map_cons, List.map_nil, List.cons_append, List.nil_append]
  rw [h0, h1, h2, h3, h4, h5]

/-- **C96** (files): thirteen files, with different names: the vacuum propagator, then for each temperature the longitudinal, then the
transverse propagator with the parameters of that temperature; each row is a momentum and the value of the propagator normalised at 4 GeV. -/
theorem C96_files (ig : Integrator) (k : Consts ℝ) :
    (main ig k).1 = ⟨"T000V.txt", ymMomenta.map fun p => (p, at4GeV ymV p)⟩ ::
      ((ymLongitudinal.map fun r => ⟨"T" ++ toString r.mev ++ "L.txt", ymMomenta.map fun p => (p, at4GeV (ymL ig k r) p)⟩) ++
       (ymTransverse.map fun r => ⟨"T" ++ toString r.mev ++ "T.txt", ymMomenta.map fun p => (p, at4GeV (ymT ig k r) p)⟩)) ∧
    ((main ig k).1.map File.name).Nodup ∧ (main ig k).1.length = 13 := by
  have h : (main ig k).1 = ⟨"T000V.txt", ymMomenta.map fun p => (p, at4GeV ymV p)⟩ ::
      ((ymLongitudinal.map fun r => ⟨"T" ++ toString r.mev ++ "L.txt", ymMomenta.map fun p => (p, at4GeV (ymL ig k r) p)⟩) ++
       (ymTransverse.map fun r => ⟨"T" ++ toString r.mev ++ "T.txt", ymMomenta.map fun p => (p, at4GeV (ymT ig k r) p)⟩)) := by
    have hl := congrArg (List.map fun x => x.1) (blocks_l ig k)
    have ht := congrArg (List.map fun x => x.1) (blocks_t ig k)
    simp only [List.map_append, List.map_map, Function.comp_def] at hl ht
    simp only [main, List.map_append, List.map_map, Function.comp_def, vacuum_file, vacuum_eq, momenta_eq, zip_map_self]
    rw [← hl, ← ht]
    simp
  refine ⟨h, ?_, ?_⟩
  · rw [h]
    simp only [ymLongitudinal, ymTransverse, List.map_cons, List.map_nil, List.cons_append, List.nil_append]
    decide
  · rw [h]; simp [ymLongitudinal, ymTransverse]

/-- **C96** (plots): the curves of the four plots are the second columns of the files: temperatures up to 260 MeV, with the vacuum, and from 290 MeV,
longitudinal and transverse; the labels are the temperatures. -/
theorem C96_plots (ig : Integrator) (k : Consts ℝ) :
    (main ig k).2 =
      [⟨"target/ym_thermal_gluon_propagator/gluon_propagator_l_low_t.png", ymMomenta, ["$T=0$ MeV", "$T=121$ MeV", "$T=194$ MeV", "$T=260$ MeV"],
          ymMomenta.map (at4GeV ymV) :: (ymLongitudinal.take 3).map fun r => ymMomenta.map (at4GeV (ymL ig k r))⟩,
       ⟨"target/ym_thermal_gluon_propagator/gluon_propagator_l_high_t.png", ymMomenta, ["$T=290$ MeV", "$T=366$ MeV", "$T=458$ MeV"],
          (ymLongitudinal.drop 3).map fun r => ymMomenta.map (at4GeV (ymL ig k r))⟩,
       ⟨"target/ym_thermal_gluon_propagator/gluon_propagator_t_low_t.png", ymMomenta, ["$T=0$ MeV", "$T=121$ MeV", "$T=194$ MeV", "$T=260$ MeV"],
          ymMomenta.map (at4GeV ymV) :: (ymTransverse.take 3).map fun r => ymMomenta.map (at4GeV (ymT ig k r))⟩,
       ⟨"target/ym_thermal_gluon_propagator/gluon_propagator_t_high_t.png", ymMomenta, ["$T=290$ MeV", "$T=366$ MeV", "$T=458$ MeV"],
          (ymTransverse.drop 3).map fun r => ymMomenta.map (at4GeV (ymT ig k r))⟩] ∧
    ∀ pl ∈ (main ig k).2, tc.Spec.Plot.WellFormed pl := by
  have hl := blocks_l ig k
  have ht := blocks_t ig k
  have hl1 := congrArg (List.take 3) hl
  have hl2 := congrArg (List.drop 3) hl
  have ht1 := congrArg (List.take 3) ht
  have ht2 := congrArg (List.drop 3) ht
  simp only [List.map_cons, List.map_nil, List.cons_append, List.nil_append, List.take_succ_cons, List.take_zero, List.drop_succ_cons, List.drop_zero,
    ymLongitudinal, ymTransverse] at hl1 hl2 ht1 ht2
  have h : (main ig k).2 =
      [⟨"target/ym_thermal_gluon_propagator/gluon_propagator_l_low_t.png", ymMomenta, ["$T=0$ MeV", "$T=121$ MeV", "$T=194$ MeV", "$T=260$ MeV"],
          ymMomenta.map (at4GeV ymV) :: (ymLongitudinal.take 3).map fun r => ymMomenta.map (at4GeV (ymL ig k r))⟩,
       ⟨"target/ym_thermal_gluon_propagator/gluon_propagator_l_high_t.png", ymMomenta, ["$T=290$ MeV", "$T=366$ MeV", "$T=458$ MeV"],
          (ymLongitudinal.drop 3).map fun r => ymMomenta.map (at4GeV (ymL ig k r))⟩,
       ⟨"target/ym_thermal_gluon_propagator/gluon_propagator_t_low_t.png", ymMomenta, ["$T=0$ MeV", "$T=121$ MeV", "$T=194$ MeV", "$T=260$ MeV"],
          ymMomenta.map (at4GeV ymV) :: (ymTransverse.take 3).map fun r => ymMomenta.map (at4GeV (ymT ig k r))⟩,
       ⟨"target/ym_thermal_gluon_propagator/gluon_propagator_t_high_t.png", ymMomenta, ["$T=290$ MeV", "$T=366$ MeV", "$T=458$ MeV"],
          (ymTransverse.drop 3).map fun r => ymMomenta.map (at4GeV (ymT ig k r))⟩] := by
    simp only [main, momenta_eq, vacuum_eq, List.map_cons, List.map_nil, List.cons_append, List.nil_append]
    simp only [List.cons.injEq, and_true] at hl1 hl2 ht1 ht2
    obtain ⟨a1, a2, a3⟩ := hl1
    obtain ⟨b1, b2, b3⟩ := hl2
    obtain ⟨c1, c2, c3⟩ := ht1
    obtain ⟨d1, d2, d3⟩ := ht2
    rw [a1, a2, a3, b1, b2, b3, c1, c2, c3, d1, d2, d3]
    simp only [ymLongitudinal, ymTransverse, List.map_cons, List.map_nil, List.take_succ_cons, List.take_zero, List.drop_succ_cons, List.drop_zero]
    rfl
  refine ⟨h, ?_⟩
  rw [h]
  intro pl hpl
  simp only [ymLongitudinal, ymTransverse, List.map_cons, List.map_nil, List.take_succ_cons, List.take_zero, List.drop_succ_cons, List.drop_zero,
    List.mem_cons, List.not_mem_nil, or_false] at hpl
  rcases hpl with rfl | rfl | rfl | rfl
  all_goals
    refine ⟨?_, .inr (by simp)⟩
    intro im him
    simp only [List.mem_cons, List.not_mem_nil, or_false] at him
    rcases him with rfl | rfl | rfl | rfl <;> simp

/-- **C96** (normalisation): the tabulated functions are `1/p²` at 4 GeV. -/
theorem C96_normalisation (D : ℝ → ℝ) (h : D 4 ≠ 0) : at4GeV D 4 = 1 / 4 ^ 2 := by
  rw [at4GeV]; field_simp

example : at4GeV (fun p => 1 / (p ^ 2 + 1)) 4 = 1 / 4 ^ 2 := C96_normalisation _ (by norm_num)

theorem ym_rows_pos : ∀ r ∈ ymLongitudinal ++ ymTransverse, (r.om : ℝ) ≠ 0 ∧ (r.m : ℝ) ≠ 0 ∧ 0 < 1 / ((r.mev : ℝ) / 1000) := by
  intro r hr
  have : 0 < r.om ∧ 0 < r.m ∧ 0 < r.mev := by
    revert r
    decide +kernel
  obtain ⟨h1, h2, h3⟩ := this
  have h1 : (0 : ℝ) < r.om := by exact_mod_cast h1
  have h2 : (0 : ℝ) < r.m := by exact_mod_cast h2
  have h3 : (0 : ℝ) < r.mev := by exact_mod_cast h3
  exact ⟨h1.ne', h2.ne', by positivity⟩

/-- **C96** (real part): the program keeps the real part of the propagators; nothing is lost, whatever the quadrature rule. -/
theorem C96_real {ig : Integrator} (hi : ig.Interior) (hc : ig.Conj) (k : Consts ℝ) (p : ℝ) :
    (∀ r ∈ ymLongitudinal, ym.thermal.gluon.propagator_l_landau ig k (r.om : ℝ) p (r.m : ℝ) (1 / ((r.mev : ℝ) / 1000)) (r.f0 : ℝ) = ymL ig k r p) ∧
    (∀ r ∈ ymTransverse, ym.thermal.gluon.propagator_t_landau ig k (r.om : ℝ) p (r.m : ℝ) (1 / ((r.mev : ℝ) / 1000)) (r.f0 : ℝ) = ymT ig k r p) := by
  constructor <;> intro r hr
  · obtain ⟨h1, h2, h3⟩ := ym_rows_pos r (List.mem_append_left _ hr)
    have := C97_real_ym hi hc k p r.m _ r.f0 h2 h3 r.om h1
    exact Complex.ext rfl (by rw [this.2.2.2.2.2.1]; rfl)
  · obtain ⟨h1, h2, h3⟩ := ym_rows_pos r (List.mem_append_right _ hr)
    have := C97_real_ym hi hc k p r.m _ r.f0 h2 h3 r.om h1
    exact Complex.ext rfl (by rw [this.2.2.2.2.2.2.2.2.1]; rfl)

example (k : Consts ℝ) := C96_real exact_interior exact_conj k 1

end Qcd
