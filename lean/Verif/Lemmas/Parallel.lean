import Verif.Model.Parallel
import Mathlib.Algebra.BigOperators.Fin
import Mathlib.Data.Fintype.BigOperators
import Mathlib.Tactic.Ring
import Mathlib.Tactic.IntervalCases

/-! # Lemmas about scans -/

namespace Qcd.parallel
open consts (Consts Integral)

variable {X A : Type} {xs : List X}

theorem Prog.run_mem (p : Prog A) (h : p.ReadOnly) (k : Consts ℝ) : (p.run k).2 = k := by
  induction p with
  | done a => rfl
  | panic => rfl
  | load c next ih => exact ih _ (h _)
  | store c v next => exact h.elim

/-- What is known of a slot: the statics are still `k`. -/
def Slot.Good (k : Consts ℝ) (q : Prog A) : Slot A → Prop
  | .waiting => True
  | .running p => p.ReadOnly ∧ (p.run k).1 = (q.run k).1
  | .ready a => (q.run k).1 = some a
  | .panicked => (q.run k).1 = none

/-- Steps left in a slot. -/
def Slot.left (k : Consts ℝ) (q : Prog A) : Slot A → ℕ
  | .waiting => q.steps k + 1
  | .running p => p.steps k
  | .ready _ => 0
  | .panicked => 0

theorem sum_update (st : Scan A xs) (i : Fin xs.length) (s : Slot A) (g : Fin xs.length → Slot A → ℕ) (h : g i (st.slots i) = g i s + 1) :
    ∑ j, g j (st.slots j) = ∑ j, g j ((st.set i s).slots j) + 1 := by
  have e : ∀ j, g j ((st.set i s).slots j) + (if j = i then 1 else 0) = g j (st.slots j) := by
    intro j
    by_cases hj : j = i
    · subst hj; simp [Scan.set, h]
    · simp [Scan.set, hj]
  simp only [← e, Finset.sum_add_distrib]
  simp

theorem good_set {k : Consts ℝ} {f : X → Prog A} (st : Scan A xs) (i : Fin xs.length) (s : Slot A)
    (h : ∀ j, (st.slots j).Good k (f xs[j])) (hs : s.Good k (f xs[i])) (j : Fin xs.length) : ((st.set i s).slots j).Good k (f xs[j]) := by
  by_cases hj : j = i
  · subst hj; simpa [Scan.set] using hs
  · simpa [Scan.set, hj] using h j

theorem invariant {f : X → Prog A} {k : Consts ℝ} (hf : ∀ x ∈ xs, (f x).ReadOnly) {m : ℕ} {st0 st : Scan A xs} (h0 : st0 = Scan.start A xs k)
    (h : Scan.Steps f m st0 st) :
    st.mem = k ∧ (∀ i, (st.slots i).Good k (f xs[i])) ∧
      m + ∑ i, (st.slots i).left k (f xs[i]) = ∑ i : Fin xs.length, ((f xs[i]).steps k + 1) := by
  induction h with
  | nil st => subst h0; exact ⟨rfl, fun i => trivial, by simp [Scan.start, Slot.left]⟩
  | snoc hs hstep ih =>
    obtain ⟨hm, hg, hl⟩ := ih h0
    cases hstep with
    | take i hi =>
      refine ⟨hm, good_set _ i _ hg ⟨hf _ (List.getElem_mem _), rfl⟩, ?_⟩
      have := sum_update _ i (.running (f xs[i])) (fun j s => s.left k (f xs[j])) (by rw [hi]; rfl)
      omega
    | load i c next hi =>
      have hgi := hg i
      rw [hi] at hgi
      rw [hm]
      refine ⟨hm, good_set _ i _ hg ⟨hgi.1 _, hgi.2⟩, ?_⟩
      have := sum_update _ i (.running (next (c.get k))) (fun j s => s.left k (f xs[j])) (by rw [hi]; rfl)
      omega
    | store i c v next hi =>
      have hgi := hg i
      rw [hi] at hgi
      exact hgi.1.elim
    | finish i a hi =>
      have hgi := hg i
      rw [hi] at hgi
      refine ⟨hm, good_set _ i _ hg hgi.2.symm, ?_⟩
      have := sum_update _ i (.ready a) (fun j s => s.left k (f xs[j])) (by rw [hi]; rfl)
      omega
    | fail i hi =>
      have hgi := hg i
      rw [hi] at hgi
      refine ⟨hm, good_set _ i _ hg hgi.2.symm, ?_⟩
      have := sum_update _ i .panicked (fun j s => s.left k (f xs[j])) (by rw [hi]; rfl)
      omega

theorem mapM_eq_some {B : Type} {g : X → Option B} : ∀ {l : List X} {ys : List B}, List.Forall₂ (fun x y => g x = some y) l ys → l.mapM g = some ys
  | _, _, .nil => rfl
  | _, _, .cons h t => by simp [List.mapM_cons, h, mapM_eq_some t]

theorem mapM_eq_none {B : Type} {g : X → Option B} : ∀ {l : List X} {x : X}, x ∈ l → g x = none → l.mapM g = none
  | y :: l, x, hx, h => by
    rw [List.mapM_cons]
    rcases List.mem_cons.1 hx with rfl | hx
    · simp [h]
    · rw [mapM_eq_none hx h]; cases g y <;> rfl

theorem forall₂_ofFn {B : Type} {R : X → B → Prop} (l : List X) (v : Fin l.length → B) (h : ∀ i, R l[i] (v i)) : List.Forall₂ R l (List.ofFn v) := by
  rw [List.forall₂_iff_get]
  refine ⟨by simp, fun i hi hi' => ?_⟩
  have := h ⟨i, hi⟩
  simpa using this

/-! ## Calls -/

/-- The piece of program `f` passes `y` on when the statics are `k`. -/
def Passes (k : Consts ℝ) (f : (ℝ → Prog A) → Prog A) (y : ℝ) : Prop := ∀ ret, (f ret).run k = (ret y).run k

/-- The piece of program `f` writes nothing. -/
def Reads (f : (ℝ → Prog A) → Prog A) : Prop := ∀ ret, (∀ y, (ret y).ReadOnly) → (f ret).ReadOnly

theorem quadrature_passes {k : Consts ℝ} {f : ℝ → (ℝ → Prog A) → Prog A} {g : ℝ → ℝ} (h : ∀ t, Passes k (f t) (g t)) (q : Quadrature) :
    Passes k (fun ret => q.prog f ret) (q.answer g) := by
  intro ret
  induction q with
  | result r => rfl
  | ask t next ih =>
    show (f t fun y => (next y).prog f ret).run k = _
    rw [h t]; exact ih _

theorem quadrature_reads {f : ℝ → (ℝ → Prog A) → Prog A} (h : ∀ t, Reads (f t)) (q : Quadrature) : Reads (fun ret => q.prog f ret) := by
  intro ret hr
  induction q with
  | result r => exact hr r
  | ask t next ih => exact h t _ fun y => ih y

theorem density_passes (k : Consts ℝ) (alg : ℝ × ℝ → Integral ℝ → Quadrature) (m beta mu : ℝ) (i : Integral ℝ) :
    Passes (A := A) k (charge_density_with_method alg m beta mu i)
      ((alg (0, 1) i).answer fun t => qcd.thermal.quark.charge_density_i k ((1 - t) / t) m beta mu / (t * t)) :=
  quadrature_passes (f := fun t ret => charge_density_i ((1 - t) / t) m beta mu fun y => ret (y / (t * t))) (fun t ret => rfl) _

theorem density_reads (alg : ℝ × ℝ → Integral ℝ → Quadrature) (m beta mu : ℝ) (i : Integral ℝ) :
    Reads (A := A) (charge_density_with_method alg m beta mu i) :=
  quadrature_reads (f := fun t ret => charge_density_i ((1 - t) / t) m beta mu fun y => ret (y / (t * t))) (fun t ret hr v => hr _) _

theorem loop_run {k : Consts ℝ} {f : ℝ → (ℝ → Prog A) → Prog A} {g : ℝ → ℝ} (h : ∀ t, Passes k (f t) (g t)) (tol : ℝ) (ret : Option ℝ → Prog A) :
    ∀ (n : ℕ) (z0 z1 f0 f1 : ℝ), (find_root_loop f tol ret n z0 z1 f0 f1).run k =
      (ret (match (utils.loop (utils.exactOps ℝ) g tol n z0 z1 f0 f1).1 with | .some z _ => some z | .none => none | .panic => none)).run k
  | 0, _, _, _, _ => rfl
  | n + 1, z0, z1, f0, f1 => by
    have e : ((utils.exactOps ℝ).lt ((utils.exactOps ℝ).abs f1) tol = true) ↔ |f1| < tol := by
      simp [utils.exactOps, Qcd.abs, toC]
    simp only [find_root_loop, utils.loop]
    have hn : (utils.exactOps ℝ).isNaN f1 = false := rfl
    by_cases ht : |f1| < tol
    · rw [if_pos ht, hn, if_neg (by simp), if_pos (e.2 ht)]
    · rw [if_neg ht, hn, if_neg (by simp), if_neg (fun h => ht (e.1 h)), h, loop_run h]
      rfl

theorem loop_reads {f : ℝ → (ℝ → Prog A) → Prog A} (h : ∀ t, Reads (f t)) (tol : ℝ) (ret : Option ℝ → Prog A) (hr : ∀ o, (ret o).ReadOnly) :
    ∀ (n : ℕ) (z0 z1 f0 f1 : ℝ), (find_root_loop f tol ret n z0 z1 f0 f1).ReadOnly
  | 0, _, _, _, _ => hr _
  | n + 1, z0, z1, f0, f1 => by
    simp only [find_root_loop]
    split
    · exact hr _
    · exact h _ _ fun y => loop_reads h tol ret hr n _ _ _ _

/-! ## Scans of two items -/

section two
variable {x y : X} {f : X → Prog A}

theorem Scan.Steps.trans {f : X → Prog A} {a b : ℕ} {s t u : Scan A xs} (h : Scan.Steps f a s t) (g : Scan.Steps f b t u) : Scan.Steps f (a + b) s u := by
  induction g with
  | nil => exact h
  | snoc _ hs ih => exact .snoc (ih h) hs

/-- The two slots and the statics. -/
def two (x y : X) (s t : Slot A) (k : Consts ℝ) : Scan A [x, y] := ⟨fun i => if i.1 = 0 then s else t, k⟩

theorem set_two_zero (s t s' : Slot A) (k : Consts ℝ) : (two x y s t k).set ⟨0, by simp⟩ s' = two x y s' t k := by
  unfold two Scan.set
  congr 1
  funext i
  rcases i with ⟨i, hi⟩
  rcases i with _ | i
  · simp [Function.update]
  · simp [Function.update]

theorem set_two_one (s t s' : Slot A) (k : Consts ℝ) : (two x y s t k).set ⟨1, by simp⟩ s' = two x y s s' k := by
  unfold two Scan.set
  congr 1
  funext i
  rcases i with ⟨i, hi⟩
  have hi' : i < 2 := by simpa using hi
  interval_cases i <;> simp [Function.update]

theorem start_two (k : Consts ℝ) : Scan.start A [x, y] k = two x y .waiting .waiting k := by
  unfold two Scan.start
  simp

theorem take_zero (t : Slot A) (k : Consts ℝ) : Scan.Step f (two x y .waiting t k) (two x y (.running (f x)) t k) := by
  have h := Scan.Step.take (f := f) (two x y .waiting t k) ⟨0, by simp⟩ rfl
  rw [set_two_zero] at h
  exact h

theorem take_one (s : Slot A) (k : Consts ℝ) : Scan.Step f (two x y s .waiting k) (two x y s (.running (f y)) k) := by
  have h := Scan.Step.take (f := f) (two x y s .waiting k) ⟨1, by simp⟩ rfl
  rw [set_two_one] at h
  exact h

theorem load_zero (c : Static) (next : c.Val → Prog A) (t : Slot A) (k : Consts ℝ) :
    Scan.Step f (two x y (.running (.load c next)) t k) (two x y (.running (next (c.get k))) t k) := by
  have h := Scan.Step.load (f := f) (two x y (.running (.load c next)) t k) ⟨0, by simp⟩ c next rfl
  rw [set_two_zero] at h
  exact h

theorem store_zero (c : Static) (v : c.Val) (next : Prog A) (t : Slot A) (k : Consts ℝ) :
    Scan.Step f (two x y (.running (.store c v next)) t k) (two x y (.running next) t (c.put v k)) := by
  have h := Scan.Step.store (f := f) (two x y (.running (.store c v next)) t k) ⟨0, by simp⟩ c v next rfl
  rw [set_two_zero] at h
  exact h

theorem store_one (c : Static) (v : c.Val) (next : Prog A) (s : Slot A) (k : Consts ℝ) :
    Scan.Step f (two x y s (.running (.store c v next)) k) (two x y s (.running next) (c.put v k)) := by
  have h := Scan.Step.store (f := f) (two x y s (.running (.store c v next)) k) ⟨1, by simp⟩ c v next rfl
  rw [set_two_one] at h
  exact h

/-- The first item runs to its end while the second waits. -/
theorem solo_zero {a : A} (t : Slot A) : ∀ (p : Prog A) (k : Consts ℝ), (p.run k).1 = some a →
    ∃ m, Scan.Steps f m (two x y (.running p) t k) (two x y (.ready a) t (p.run k).2)
  | .done b, k, h => by
    obtain rfl : b = a := by simpa [Prog.run] using h
    refine ⟨1, .snoc (.nil _) ?_⟩
    show Scan.Step f _ (two x y (.ready b) t k)
    have h := Scan.Step.finish (f := f) (two x y (.running (.done b)) t k) ⟨0, by simp⟩ b rfl
    rw [set_two_zero] at h
    exact h
  | .panic, k, h => by simp [Prog.run] at h
  | .load c next, k, h => by
    obtain ⟨m, hm⟩ := solo_zero t (next (c.get k)) k h
    exact ⟨_, (Scan.Steps.snoc (.nil _) (load_zero c next t k)).trans hm⟩
  | .store c v next, k, h => by
    obtain ⟨m, hm⟩ := solo_zero t next (c.put v k) h
    exact ⟨_, (Scan.Steps.snoc (.nil _) (store_zero c v next t k)).trans hm⟩

/-- The second item runs to its end while the first waits. -/
theorem solo_one {a : A} (s : Slot A) : ∀ (p : Prog A) (k : Consts ℝ), (p.run k).1 = some a →
    ∃ m, Scan.Steps f m (two x y s (.running p) k) (two x y s (.ready a) (p.run k).2)
  | .done b, k, h => by
    obtain rfl : b = a := by simpa [Prog.run] using h
    refine ⟨1, .snoc (.nil _) ?_⟩
    show Scan.Step f _ (two x y s (.ready b) k)
    have h := Scan.Step.finish (f := f) (two x y s (.running (.done b)) k) ⟨1, by simp⟩ b rfl
    rw [set_two_one] at h
    exact h
  | .panic, k, h => by simp [Prog.run] at h
  | .load c next, k, h => by
    obtain ⟨m, hm⟩ := solo_one s (next (c.get k)) k h
    have h1 : Scan.Step f (two x y s (.running (.load c next)) k) (two x y s (.running (next (c.get k))) k) := by
      have h := Scan.Step.load (f := f) (two x y s (.running (.load c next)) k) ⟨1, by simp⟩ c next rfl
      rw [set_two_one] at h
      exact h
    exact ⟨_, (Scan.Steps.snoc (.nil _) h1).trans hm⟩
  | .store c v next, k, h => by
    obtain ⟨m, hm⟩ := solo_one s next (c.put v k) h
    exact ⟨_, (Scan.Steps.snoc (.nil _) (store_one c v next s k)).trans hm⟩

theorem returns_two (a b : A) (k : Consts ℝ) : (two x y (.ready a) (.ready b) k).Returns [a, b] :=
  ⟨fun i => if i.1 = 0 then a else b, fun i => by simp only [two]; split <;> rfl, by simp [List.ofFn_succ]⟩

end two

end Qcd.parallel
