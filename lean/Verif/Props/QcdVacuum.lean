import Verif.Props.QuarkLoop
import Verif.Spec.Qcd
import Verif.Props.Consts
import Mathlib.Tactic.FieldSimp
import Mathlib.Tactic.Ring
import Mathlib.Algebra.BigOperators.Group.List.Basic

/-! C27-C30, C32: the vacuum QCD gluon functions and the field configuration. -/

namespace Qcd
open consts (Consts)
variable {T : Type} [Num T]

theorem foldl_quarks (F : T → T) (s r : T) (nc : ℕ) (m : ℝ) (qs : List (ℕ × ℝ)) :
    (qs.map (fun q => QuarkInternal.new nc m q.1 q.2)).foldl
      (fun res qi => res + F (s / ofR qi.mq_div_m_2) * ofR qi.nf_div_nc) r
      = r + quarkSum F s nc m qs := by
  induction qs generalizing r with
  | nil => simp [quarkSum]
  | cons q qs ih =>
    simp only [List.map_cons, List.foldl_cons, ih]
    simp only [quarkSum, List.map_cons, List.sum_cons, QuarkInternal.new, ← add_assoc, ← sq]

/-- The inverse dressings of a configuration built by `new` are the Yang-Mills ones plus the sum
over the quarks: additivity in the quark list (**C29**). -/
theorem C29_additive (k : Consts ℝ) (s : T) (f0 xi : ℝ) (nc : ℕ) (m : ℝ) (qs : List (ℕ × ℝ)) :
    let c := FieldConfig.new nc m qs
    qcd.gluon.dressing_inv_landau_w_field_config k s f0 c
      = ym.gluon.dressing_inv_landau s f0 + quarkSum gluon.f_q s nc m qs ∧
    qcd.gluon.dressing_inv_w_field_config k s f0 xi c
      = ym.gluon.dressing_inv s f0 xi + quarkSum gluon.f_q s nc m qs ∧
    qcd.gluon.dressing_crossed_inv_landau_w_field_config k s f0 c
      = ym.gluon.dressing_inv_landau s f0 + quarkSum gluon.f_q_crossed s nc m qs ∧
    qcd.gluon.dressing_crossed_inv_w_field_config k s f0 xi c
      = ym.gluon.dressing_inv s f0 xi + quarkSum gluon.f_q_crossed s nc m qs := by
  refine ⟨?_, ?_, ?_, ?_⟩ <;> exact foldl_quarks _ _ _ _ _ _

/-- All values of a configuration are determined by the quark sums. -/
theorem configValues_congr (k k' : Consts ℝ) (s : T) (f0 xi : ℝ) (nc nc' : ℕ) (m m' : ℝ)
    (qs qs' : List (ℕ × ℝ))
    (h : ∀ F : T → T, quarkSum F s nc m qs = quarkSum F s nc' m' qs') :
    configValues k s f0 xi (FieldConfig.new nc m qs)
      = configValues k' s f0 xi (FieldConfig.new nc' m' qs') := by
  obtain ⟨a1, a2, a3, a4⟩ := C29_additive k s f0 xi nc m qs
  obtain ⟨b1, b2, b3, b4⟩ := C29_additive k' s f0 xi nc' m' qs'
  rw [h] at a1 a2 a3 a4
  simp only [configValues, qcd.gluon.dressing_landau_w_field_config,
    qcd.gluon.dressing_w_field_config, qcd.gluon.propagator_landau_w_field_config,
    qcd.gluon.propagator_w_field_config, qcd.gluon.dressing_crossed_landau_w_field_config,
    qcd.gluon.dressing_crossed_w_field_config, qcd.gluon.propagator_crossed_landau_w_field_config,
    qcd.gluon.propagator_crossed_w_field_config, a1, a2, a3, a4, b1, b2, b3, b4]

/-- **C29** (order): permuting the quark list changes nothing. -/
theorem C29_order (k : Consts ℝ) (s : T) (f0 xi : ℝ) (nc : ℕ) (m : ℝ)
    {qs qs' : List (ℕ × ℝ)} (h : qs.Perm qs') :
    configValues k s f0 xi (FieldConfig.new nc m qs)
      = configValues k s f0 xi (FieldConfig.new nc m qs') :=
  configValues_congr _ _ _ _ _ _ _ _ _ _ _ (fun _ => (h.map _).sum_eq)

/-- **C29** (splitting): `(a + b, mq)` is the same as `(a, mq), (b, mq)`. -/
theorem C29_split (k : Consts ℝ) (s : T) (f0 xi : ℝ) (nc : ℕ) (m : ℝ)
    (qs qs' : List (ℕ × ℝ)) (a b : ℕ) (mq : ℝ) :
    configValues k s f0 xi (FieldConfig.new nc m (qs ++ (a + b, mq) :: qs'))
      = configValues k s f0 xi (FieldConfig.new nc m (qs ++ (a, mq) :: (b, mq) :: qs')) := by
  apply configValues_congr
  intro F
  simp only [quarkSum, List.map_append, List.map_cons, List.sum_append, List.sum_cons]
  simp only [Nat.cast_add, add_div, ofR_add]
  ring

/-- **C29** (zero flavours): an entry with no flavours is irrelevant, whatever its mass. -/
theorem C29_zero_entry (k : Consts ℝ) (s : T) (f0 xi : ℝ) (nc : ℕ) (m : ℝ)
    (qs qs' : List (ℕ × ℝ)) (mq : ℝ) :
    configValues k s f0 xi (FieldConfig.new nc m (qs ++ (0, mq) :: qs'))
      = configValues k s f0 xi (FieldConfig.new nc m (qs ++ qs')) := by
  apply configValues_congr
  intro F
  simp [quarkSum]

/-- A list with a non-trivial permutation and split. -/
example (k : Consts ℝ) (s : ℂ) : configValues k s 1 0 (FieldConfig.new 3 1 [(2, 1), (3, 5)])
    = configValues k s 1 0 (FieldConfig.new 3 1 [(3, 5), (1, 1), (1, 1), (0, 7)]) := by
  rw [C29_order k s 1 0 3 1 (List.Perm.swap (3, 5) (2, 1) [])]
  rw [show ([(3, 5), (1, 1), (1, 1), (0, 7)] : List (ℕ × ℝ)) =
    [(3, 5), (1, 1), (1, 1)] ++ (0, 7) :: [] from rfl, C29_zero_entry]
  exact C29_split k s 1 0 3 1 [(3, 5)] [] 1 1 1

/-- **C27** (configurations): with no quarks, or only zero-flavour entries, every QCD function equals
its Yang-Mills counterpart. -/
theorem C27_config (k : Consts ℝ) (s : T) (f0 xi : ℝ) (nc : ℕ) (m : ℝ) (qs : List (ℕ × ℝ))
    (h : ∀ q ∈ qs, q.1 = 0) :
    configValues k s f0 xi (FieldConfig.new nc m qs) = ymValues s f0 xi := by
  have hz : ∀ F : T → T, quarkSum F s nc m qs = 0 := by
    intro F
    apply List.sum_eq_zero
    intro x hx
    obtain ⟨q, hq, rfl⟩ := List.mem_map.1 hx
    simp [h q hq]
  obtain ⟨a1, a2, a3, a4⟩ := C29_additive k s f0 xi nc m qs
  rw [hz, add_zero] at a1 a2 a3 a4
  simp only [configValues, qcd.gluon.dressing_landau_w_field_config,
    qcd.gluon.dressing_w_field_config, qcd.gluon.propagator_landau_w_field_config,
    qcd.gluon.propagator_w_field_config, qcd.gluon.dressing_crossed_landau_w_field_config,
    qcd.gluon.dressing_crossed_w_field_config, qcd.gluon.propagator_crossed_landau_w_field_config,
    qcd.gluon.propagator_crossed_w_field_config, a1, a2, a3, a4, ymValues,
    ym.gluon.dressing_landau, ym.gluon.dressing, ym.gluon.propagator_landau, ym.gluon.propagator,
    div_eq_mul_inv, List.cons_append, List.nil_append]

/-- The single-mass functions in terms of the Yang-Mills ones and the current ratio. -/
theorem global_additive (k : Consts ℝ) (s : T) (mq f0 xi : ℝ) :
    qcd.gluon.dressing_inv_landau k s mq f0
      = ym.gluon.dressing_inv_landau s f0 + gluon.f_q (s / ofR (mq ^ 2)) * ofR k.nf_div_nc ∧
    qcd.gluon.dressing_inv k s mq f0 xi
      = ym.gluon.dressing_inv s f0 xi + gluon.f_q (s / ofR (mq ^ 2)) * ofR k.nf_div_nc ∧
    qcd.gluon.dressing_crossed_inv_landau k s mq f0
      = ym.gluon.dressing_inv_landau s f0
        + gluon.f_q_crossed (s / ofR (mq ^ 2)) * ofR k.nf_div_nc ∧
    qcd.gluon.dressing_crossed_inv k s mq f0 xi
      = ym.gluon.dressing_inv s f0 xi
        + gluon.f_q_crossed (s / ofR (mq ^ 2)) * ofR k.nf_div_nc := by
  rw [sq mq]
  exact ⟨rfl, rfl, rfl, rfl⟩

/-- **C27** (globals): after any history of setter calls that leaves the number of fermions at zero,
the single-mass QCD functions equal the Yang-Mills ones. -/
theorem C27_global (h : List (consts.Setter ℝ)) (hnf : (consts.after h).nf = 0) (s : T)
    (mq f0 xi : ℝ) : globalValues (consts.after h) s mq f0 xi = ymValues s f0 xi := by
  have hr : (consts.after h).nf_div_nc = 0 := by
    rw [consts.C02_ratio_current, hnf]; simp [consts.FloatOps.div, consts.FloatOps.ofU32]
  obtain ⟨a1, a2, a3, a4⟩ := global_additive (consts.after h) s mq f0 xi
  rw [hr, ofR_zero, mul_zero, add_zero] at a1 a2 a3 a4
  simp only [globalValues, qcd.gluon.dressing_landau,
    qcd.gluon.dressing, qcd.gluon.propagator_landau,
    qcd.gluon.propagator, qcd.gluon.dressing_crossed_landau,
    qcd.gluon.dressing_crossed, qcd.gluon.propagator_crossed_landau,
    qcd.gluon.propagator_crossed, a1, a2, a3, a4, ymValues,
    ym.gluon.dressing_landau, ym.gluon.dressing, ym.gluon.propagator_landau, ym.gluon.propagator,
    div_eq_mul_inv, List.cons_append, List.nil_append]

example : (consts.after [.number_of_fermions 4, .number_of_fermions 0] : Consts ℝ).nf = 0 := rfl

/-- **C28**: after any history of setter calls, the single-mass functions (quark mass in units of the
gluon mass) agree with the field-configuration functions for the single-flavour-group
configuration with the current numbers of colours and fermions. -/
theorem C28_interfaces_agree (h : List (consts.Setter ℝ)) (s : T) (f0 xi m mq : ℝ) :
    let k := consts.after h
    configValues k s f0 xi (FieldConfig.new k.nc m [(k.nf, mq)])
      = globalValues k s (mq / m) f0 xi := by
  intro k
  obtain ⟨a1, a2, a3, a4⟩ := C29_additive k s f0 xi k.nc m [(k.nf, mq)]
  obtain ⟨b1, b2, b3, b4⟩ := global_additive k s (mq / m) f0 xi
  have hr : k.nf_div_nc = (k.nf : ℝ) / (k.nc : ℝ) := consts.C02_ratio_current h
  simp only [quarkSum, List.map_cons, List.map_nil, List.sum_cons, List.sum_nil, add_zero,
    ← hr] at a1 a2 a3 a4
  simp only [configValues, qcd.gluon.dressing_landau_w_field_config,
    qcd.gluon.dressing_w_field_config, qcd.gluon.propagator_landau_w_field_config,
    qcd.gluon.propagator_w_field_config, qcd.gluon.dressing_crossed_landau_w_field_config,
    qcd.gluon.dressing_crossed_w_field_config, qcd.gluon.propagator_crossed_landau_w_field_config,
    qcd.gluon.propagator_crossed_w_field_config, a1, a2, a3, a4, globalValues,
    qcd.gluon.dressing_landau,
    qcd.gluon.dressing, qcd.gluon.propagator_landau,
    qcd.gluon.propagator, qcd.gluon.dressing_crossed_landau,
    qcd.gluon.dressing_crossed, qcd.gluon.propagator_crossed_landau,
    qcd.gluon.propagator_crossed, b1, b2, b3, b4]

/-- **C30**: the vacuum field-configuration functions return the same value whatever the global
constants are, for any configuration (built by `new` or tampered with). -/
theorem C30_independent_of_globals (k k' : Consts ℝ) (s : T) (f0 xi : ℝ) (c : FieldConfig) :
    configValues k s f0 xi c = configValues k' s f0 xi c := rfl

/-- In contrast the single-mass functions do read the globals: at every momentum and quark mass,
calling `set_number_of_fermions(0)` changes the result. -/
theorem C30_globals_matter (s mq f0 : ℝ) (hs : 0 < s) (hmq : mq ≠ 0) :
    qcd.gluon.dressing_inv_landau (consts.after []) s mq f0
      ≠ qcd.gluon.dressing_inv_landau (consts.after [.number_of_fermions 0]) s mq f0 := by
  intro heq
  have hne : gluon.f_q (s / mq ^ 2) ≠ 0 := (C61_sign _ (by positivity)).1.ne
  have a := (global_additive (consts.after []) s mq f0 0).1
  have b := (global_additive (consts.after [.number_of_fermions 0]) s mq f0 0).1
  rw [a, b] at heq
  have h1 : (consts.after [] : Consts ℝ).nf_div_nc = 1 / 3 := by
    simp [consts.after, consts.run, consts.init, consts.FloatOps.div, consts.FloatOps.lit]
  have h2 : (consts.after [.number_of_fermions 0] : Consts ℝ).nf_div_nc = 0 := by
    simp [consts.after, consts.run, consts.Setter.call, consts.set_number_of_fermions,
      consts.FloatOps.div, consts.FloatOps.ofU32]
  rw [h1, h2] at heq
  simp at heq
  exact hne heq

/-! ### C32: the cache -/

/-- **C32** (after `new`): the cached entries are, one per quark in order, its flavour number, its
mass, `nf/nc` and `(mq/m)²`; the public fields are the arguments. -/
theorem C32_new (nc : ℕ) (m : ℝ) (qs : List (ℕ × ℝ)) :
    let c := FieldConfig.new nc m qs
    c.nc = nc ∧ c.gluon = m ∧ c.quarks = qs ∧
    c.quarks_internal.length = qs.length ∧
    ∀ (i : ℕ) (nf : ℕ) (mq : ℝ), qs[i]? = some (nf, mq) →
      ∃ q, c.quarks_internal[i]? = some q ∧ q.nf = nf ∧ q.mq = mq ∧
        q.nf_div_nc = (nf : ℝ) / (nc : ℝ) ∧ q.mq_div_m_2 = (mq / m) ^ 2 := by
  refine ⟨rfl, rfl, rfl, by simp [FieldConfig.new], ?_⟩
  intro i nf mq hi
  refine ⟨QuarkInternal.new nc m nf mq, ?_, rfl, rfl, rfl, ?_⟩
  · simp [FieldConfig.new, hi]
  · simp [QuarkInternal.new, sq]

/-- **C32** (staleness): assigning the public fields does not refresh the cache, so the vacuum
functions keep returning the values of the configuration as it was built. -/
theorem C32_stale (k : Consts ℝ) (s : T) (f0 xi : ℝ) (nc nc' : ℕ) (m m' : ℝ)
    (qs qs' : List (ℕ × ℝ)) :
    configValues k s f0 xi { FieldConfig.new nc m qs with nc := nc', gluon := m', quarks := qs' }
      = configValues k s f0 xi (FieldConfig.new nc m qs) := rfl

/-- **C32** (staleness is observable): changing the number of colours of a configuration with one
quark and rebuilding it gives different results from assigning the field, at any `s > 0`. -/
theorem C32_stale_wrong (k : Consts ℝ) (s : ℝ) (f0 : ℝ) (hs : 0 < s) :
    qcd.gluon.dressing_inv_landau_w_field_config k s f0
        { FieldConfig.new 3 1 [(1, 1)] with nc := 2 }
      ≠ qcd.gluon.dressing_inv_landau_w_field_config k s f0 (FieldConfig.new 2 1 [(1, 1)]) := by
  have h1 : qcd.gluon.dressing_inv_landau_w_field_config k s f0
        { FieldConfig.new 3 1 [(1, 1)] with nc := 2 }
      = qcd.gluon.dressing_inv_landau_w_field_config k s f0 (FieldConfig.new 3 1 [(1, 1)]) := rfl
  rw [h1, (C29_additive k s f0 0 3 1 _).1, (C29_additive k s f0 0 2 1 _).1]
  simp [quarkSum]
  exact (C61_sign s hs).1.ne

end Qcd
