import Verif.Model.ChargeDensity

/-! # Evaluations running on several threads

The example programs and the programs of tc_long_prop evaluate library functions with rayon's
`par_iter().map(f).collect()` (examples/qcd_quark_charge_density.rs l.30-36 and l.42-48,
examples/qcd_gluon_propagator.rs l.39-50, one_mass_overall.rs l.185-200, physical_tc.rs l.270-290 and
others). Here an evaluation is a program that touches the `static mut` variables of
qcd-sme/src/consts.rs one at a time, and the evaluations of a scan take steps in any order.

Simplifications: one access to one static is indivisible (the statics are words of 4 or 8 bytes) and
memory is sequentially consistent; accesses take exact reals. rayon itself is external: of it only the
contract of an indexed parallel iterator is used, namely that the closure is called once on each item,
by some thread at some time, that the result for item number `i` becomes element number `i` of the
vector, and that the panic of a closure is a panic of `collect`. -/

namespace Qcd.parallel
open consts (Consts Integral)

/-- The `static mut` variables: consts.rs l.19, 44, 68, 77, 101, 130, 161. -/
inductive Static where
  | nc
  | nf
  | nf_div_nc
  | m_quark
  | tol_integral
  | max_iter_integral
  | matsubara_reg
deriving DecidableEq

/-- Their types: `NCTYPE`, `NFTYPE` and the iteration limit are unsigned integers (types.rs l.15-24,
consts.rs l.130), the others are `R`. -/
abbrev Static.Val : Static → Type
  | .nc | .nf | .max_iter_integral => ℕ
  | .nf_div_nc | .m_quark | .tol_integral | .matsubara_reg => ℝ

/-- Reading a static: the inline functions at consts.rs l.38-40 (`nc`), l.63-65 (`nf`), l.72-74, l.96-98,
l.125-127, l.149-151, l.185-187. -/
def Static.get : (c : Static) → Consts ℝ → c.Val
  | .nc, s => s.nc
  | .nf, s => s.nf
  | .nf_div_nc, s => s.nf_div_nc
  | .m_quark, s => s.m_quark
  | .tol_integral, s => s.tol_integral
  | .max_iter_integral, s => s.max_iter_integral
  | .matsubara_reg, s => s.matsubara_reg

/-- Writing a static: the assignments in the setters, consts.rs l.29-34, 54-59, 88-92, 116-121, 141-145,
176-181. -/
def Static.put : (c : Static) → c.Val → Consts ℝ → Consts ℝ
  | .nc, v, s => { s with nc := v }
  | .nf, v, s => { s with nf := v }
  | .nf_div_nc, v, s => { s with nf_div_nc := v }
  | .m_quark, v, s => { s with m_quark := v }
  | .tol_integral, v, s => { s with tol_integral := v }
  | .max_iter_integral, v, s => { s with max_iter_integral := v }
  | .matsubara_reg, v, s => { s with matsubara_reg := v }

/-- What a call does as far as other threads can tell: it returns, panics, or reads or writes one static
and goes on. What it computes between two accesses is in the continuation (the statics of consts.rs l.19-161). -/
inductive Prog (A : Type) where
  | done (a : A)
  | panic
  | load (c : Static) (next : c.Val → Prog A)
  | store (c : Static) (v : c.Val) (next : Prog A)

namespace Prog
variable {A : Type}

/-- The call on a single thread: what it returns (`none` for a panic) and the statics after it (the statics of consts.rs l.19-161). -/
def run : Prog A → Consts ℝ → Option A × Consts ℝ
  | .done a, s => (some a, s)
  | .panic, s => (none, s)
  | .load c next, s => (next (c.get s)).run s
  | .store c v next, s => next.run (c.put v s)

/-- The call writes no static, whatever it reads (the statics of consts.rs l.19-161). -/
def ReadOnly : Prog A → Prop
  | .done _ => True
  | .panic => True
  | .load _ next => ∀ v, (next v).ReadOnly
  | .store _ _ _ => False

/-- The number of accesses and the return, on a single thread (the statics of consts.rs l.19-161). -/
def steps : Prog A → Consts ℝ → ℕ
  | .done _, _ => 1
  | .panic, _ => 1
  | .load c next, s => (next (c.get s)).steps s + 1
  | .store c v next, s => next.steps (c.put v s) + 1

end Prog

/-- Where an item of a scan stands: not yet taken by a thread, being evaluated, or finished (the scans listed at the top of this file, e.g. qcd_gluon_propagator.rs l.39-50). -/
inductive Slot (A : Type) where
  | waiting
  | running (p : Prog A)
  | ready (a : A)
  | panicked

/-- A scan `xs.par_iter().map(f).collect()` in progress: one slot for each item, and the statics
(the scans listed at the top of this file, e.g. qcd_gluon_propagator.rs l.39-50). -/
structure Scan {X : Type} (A : Type) (xs : List X) where
  slots : Fin xs.length → Slot A
  mem : Consts ℝ

namespace Scan
variable {X A : Type} {xs : List X}

/-- The beginning of the scan (the scans listed at the top of this file, e.g. qcd_gluon_propagator.rs l.39-50). -/
def start (A : Type) (xs : List X) (k : Consts ℝ) : Scan A xs := ⟨fun _ => .waiting, k⟩

/-- Put `s` into slot `i` (the scans listed at the top of this file, e.g. qcd_gluon_propagator.rs l.39-50). -/
def set (st : Scan A xs) (i : Fin xs.length) (s : Slot A) : Scan A xs :=
  { st with slots := Function.update st.slots i s }

/-- One step of one thread: it takes a waiting item, or performs the next access of an item it is
evaluating, or stores its result. The item is arbitrary: this is the schedule (the scans listed at the top of this file, e.g. qcd_gluon_propagator.rs l.39-50). -/
inductive Step (f : X → Prog A) : Scan A xs → Scan A xs → Prop where
  | take (st : Scan A xs) (i : Fin xs.length) : st.slots i = .waiting →
      Step f st (st.set i (.running (f xs[i])))
  | load (st : Scan A xs) (i : Fin xs.length) (c : Static) (next : c.Val → Prog A) :
      st.slots i = .running (.load c next) → Step f st (st.set i (.running (next (c.get st.mem))))
  | store (st : Scan A xs) (i : Fin xs.length) (c : Static) (v : c.Val) (next : Prog A) :
      st.slots i = .running (.store c v next) →
      Step f st { st.set i (.running next) with mem := c.put v st.mem }
  | finish (st : Scan A xs) (i : Fin xs.length) (a : A) : st.slots i = .running (.done a) →
      Step f st (st.set i (.ready a))
  | fail (st : Scan A xs) (i : Fin xs.length) : st.slots i = .running .panic →
      Step f st (st.set i .panicked)

/-- `m` steps, of any threads in any order (the scans listed at the top of this file, e.g. qcd_gluon_propagator.rs l.39-50). -/
inductive Steps (f : X → Prog A) : ℕ → Scan A xs → Scan A xs → Prop where
  | nil (st : Scan A xs) : Steps f 0 st st
  | snoc {m : ℕ} {st st' st'' : Scan A xs} : Steps f m st st' → Step f st' st'' → Steps f (m + 1) st st''

/-- `collect` returns the vector `vs`: every item is finished, and element `i` is the result of item `i`
(the scans listed at the top of this file, e.g. qcd_gluon_propagator.rs l.39-50). -/
def Returns (st : Scan A xs) (vs : List A) : Prop :=
  ∃ v : Fin xs.length → A, (∀ i, st.slots i = .ready (v i)) ∧ vs = List.ofFn v

/-- `collect` panics: the closure panicked on some item. Items not yet taken may be dropped (the scans listed at the top of this file, e.g. qcd_gluon_propagator.rs l.39-50). -/
def Panics (st : Scan A xs) : Prop := ∃ i, st.slots i = .panicked

end Scan

/-! ## Calls of the library as programs -/

/-- consts.rs l.29-34: `NC = n; NF_DIV_NC = (NF as R) / (NC as R)`. -/
noncomputable def set_number_of_colors (n : ℕ) : Prog Unit :=
  .store .nc n <| .load .nf fun nf => .load .nc fun nc => .store .nf_div_nc ((nf : ℝ) / (nc : ℝ)) <| .done ()

/-- consts.rs l.54-59. -/
noncomputable def set_number_of_fermions (n : ℕ) : Prog Unit :=
  .store .nf n <| .load .nf fun nf => .load .nc fun nc => .store .nf_div_nc ((nf : ℝ) / (nc : ℝ)) <| .done ()

/-- A quadrature algorithm: it asks for values of the integrand, one after the other, each point
depending on the values so far, and then gives its result. Any deterministic algorithm has this form;
peroxide's `integrate` is external (types.rs l.6). -/
inductive Quadrature where
  | result (r : ℝ)
  | ask (t : ℝ) (next : ℝ → Quadrature)

/-- What the algorithm gives for the integrand `f` (`integrate`, imported in qcd/thermal.rs l.294). -/
def Quadrature.answer (f : ℝ → ℝ) : Quadrature → ℝ
  | .result r => r
  | .ask t next => (next (f t)).answer f

/-- The algorithm run with an integrand that reads statics (`integrate`, imported in qcd/thermal.rs l.294). -/
def Quadrature.prog {A : Type} (f : ℝ → (ℝ → Prog A) → Prog A) (ret : ℝ → Prog A) : Quadrature → Prog A
  | .result r => ret r
  | .ask t next => f t fun y => (next y).prog f ret

/-- qcd/thermal.rs l.354-362: `charge_density_i` calls `nc()` once, at the beginning of the product; the
rest are local computations. -/
noncomputable def charge_density_i {A : Type} (q m beta mu : ℝ) (ret : ℝ → Prog A) : Prog A :=
  .load .nc fun nc =>
    let en := energy q m
    ret ((nc : ℝ) * q * q * (fermi_distribution en beta mu - fermi_distribution en beta (-mu)) / PI2)

/-- qcd/thermal.rs l.298-304 with the algorithm `alg` for the integration: the integrand is evaluated at
the points asked for. -/
noncomputable def charge_density_with_method {A : Type} (alg : ℝ × ℝ → Integral ℝ → Quadrature) (m beta mu : ℝ)
    (integral : Integral ℝ) (ret : ℝ → Prog A) : Prog A :=
  (alg (0, 1) integral).prog
    (fun t ret => charge_density_i ((1 - t) / t) m beta mu fun y => ret (y / (t * t))) ret

/-- qcd/thermal.rs l.306-308: the default method is read from the statics (consts.rs l.156-158). -/
noncomputable def charge_density (alg : ℝ × ℝ → Integral ℝ → Quadrature) (m beta mu : ℝ) : Prog ℝ :=
  .load .tol_integral fun tol => .load .max_iter_integral fun iter =>
    charge_density_with_method alg m beta mu (.G7K15 tol iter) .done

/-- The loop of `find_root`, utils.rs l.33-42, over a function that reads statics; exact arithmetic, so
that the test for NaN (l.34) never fires. `ret` gets the zero, if one is found. -/
noncomputable def find_root_loop {A : Type} (f : ℝ → (ℝ → Prog A) → Prog A) (tol : ℝ) (ret : Option ℝ → Prog A) :
    ℕ → ℝ → ℝ → ℝ → ℝ → Prog A
  | 0, _, _, _, _ => ret none
  | n + 1, z0, z1, f0, f1 =>
    open Classical in
    if |f1| < tol then ret (some z1)
    else
      let z2 := (z0 * f1 - z1 * f0) / (f1 - f0)
      f z2 fun f2 => find_root_loop f tol ret n z1 z2 f1 f2

/-- qcd/thermal.rs l.319-331 with the method `G7K15(tol, iter)`: the root is searched (utils.rs l.22-44),
and every evaluation of the density reads `nc()` at every point of its integral. -/
noncomputable def chemical_potential_with_method (alg : ℝ × ℝ → Integral ℝ → Quadrature) (m beta n : ℝ) (tol : ℝ)
    (iter : ℕ) : Prog ℝ :=
  open Classical in
  if n = 0 then .done 0 else
  if 0.5 * n = n then .panic else
  if 0 < tol then
    let f : ℝ → (ℝ → Prog ℝ) → Prog ℝ := fun mu ret =>
      charge_density_with_method alg m beta mu (.G7K15 tol iter) fun y => ret (n - y)
    f (0.5 * n) fun f0 => f n fun f1 =>
      find_root_loop f tol (fun o => match o with | some mu => .done mu | none => .panic) 1000 (0.5 * n) n f0 f1
  else .panic

/-- qcd/thermal.rs l.333-335: the default method is read from the statics. -/
noncomputable def chemical_potential (alg : ℝ × ℝ → Integral ℝ → Quadrature) (m beta n : ℝ) : Prog ℝ :=
  .load .tol_integral fun tol => .load .max_iter_integral fun iter => chemical_potential_with_method alg m beta n tol iter

/-- qcd/thermal.rs l.310-317: `nc()` is called once, and only above the threshold. -/
noncomputable def charge_density_zero_temp (m mu : ℝ) : Prog ℝ :=
  open Classical in
  if |mu| ≤ |m| then .done 0 else
  let s : ℝ := if mu > m then 1 else -1
  let fm := fermi_momentum m mu
  .load .nc fun nc => .done ((nc : ℝ) * s * (fm * fm * fm) / (3 * PI2))

/-- qcd/thermal.rs l.337-344: `nc()` is called once, and only for a density other than zero. -/
noncomputable def chemical_potential_zero_temp (m n : ℝ) : Prog ℝ :=
  open Classical in
  if n = 0 then .done 0 else
  .load .nc fun nc =>
    let a := (3 * PI2 * |n| / (nc : ℝ)) ^ ((2 : ℝ) / 3)
    let s : ℝ := if n > 0 then 1 else -1
    .done (s * Real.sqrt (m * m + a))

/-- A user's closure that first calls `set_number_of_colors(n)` and then evaluates (as the tests do, one
after the other: qcd-sme/tests/serial.rs l.88-128). -/
noncomputable def with_colors {A : Type} (n : ℕ) (p : Prog A) : Prog A :=
  .store .nc n <| .load .nf fun nf => .load .nc fun nc => .store .nf_div_nc ((nf : ℝ) / (nc : ℝ)) p

end Qcd.parallel
