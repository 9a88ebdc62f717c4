import Verif.Spec.ComplexQcd
import Verif.Lemmas.QuarkAccuracy
import Verif.Props.ComplexPlane

/-! C127: the gluon functions with quarks off the real axis, and their spectral functions, in the arithmetic of `f64`. -/

namespace Qcd
open Fl Spec FTD

/-! ### The argument of the quark loop -/

theorem loop_off {x : CFl binary64} {s : ℂ} {d : Fl binary64} {v ρ : ℝ} (h1 : Is x.re s.re) (h2 : Is x.im s.im) (hd : Is d v) (hv : |v - ρ| ≤ 1 / 10 ^ 3 * ρ)
    (h : LoopOff s ρ) : COff (x / d) 20 44 := by
  have hρ : 0 < ρ := lt_of_lt_of_le (by norm_num) h.lo
  have b := abs_le.1 hv
  have v0 : 0 < v := by linarith [b.1]
  have up : ∀ t : ℝ, |t| / ρ ≤ 10 ^ 6 → |t / v| ≤ 2 ^ 20 := by
    intro t ht
    rw [div_le_iff₀ hρ] at ht
    rw [abs_div, abs_of_pos v0, div_le_iff₀ v0]
    norm_num at ht b ⊢
    linarith [b.1]
  have down : (2 ^ 44)⁻¹ ≤ |s.im / v| := by
    have ht := h.im_lo
    rw [le_div_iff₀ hρ] at ht
    rw [abs_div, abs_of_pos v0, le_div_iff₀ v0]
    norm_num at ht b ⊢
    linarith [b.2]
  exact ⟨below_round (a := (x / d).re) (Rel.is_div h1 hd v0.ne') (up _ h.re_hi), amid_round (a := (x / d).im) (Rel.is_div h2 hd v0.ne') (up _ h.im_hi) down⟩

theorem Run.rel {a : Fl binary64} {y n : ℝ} (h : Run a y y n) (hy : 0 < y) (hn : n ≤ 1000) : ∃ v, Is a v ∧ |v - y| ≤ 1 / 10 ^ 3 * y := by
  obtain ⟨v, v1, -, v2⟩ := h
  refine ⟨v, v1, v2.trans ?_⟩
  have hu := uu_small
  have hu0 := uu_pos
  have : n * uu ≤ 1000 * (1 / 10 ^ 15) := mul_le_mul hn hu hu0.le (by norm_num)
  gcongr
  linarith

theorem flavour_off {x : CFl binary64} {s : ℂ} {m : ℝ} {nc : ℕ} {q : ℕ × ℝ} (h1 : Is x.re s.re) (h2 : Is x.im s.im) (hm : Binary64 m) (hm0 : 0 < m)
    (h : FlavourOff m s q) : COff (x / (ComputedQuark.new nc (ofR m) q.1 (ofR q.2) : ComputedQuark (Fl binary64)).mq_div_m_2) 20 44 := by
  have hp : 0 < q.2 / m := div_pos h.pos hm0
  have lo : 1 / 10 ^ 6 ≤ q.2 / m := by
    refine le_of_sq_le_sq ?_ hp.le
    exact le_trans (by norm_num) h.off.lo
  have hi : q.2 / m ≤ 10 ^ 6 := by
    refine le_of_sq_le_sq (h.off.hi.trans (by norm_num)) (by norm_num)
  have r := track_ratio hm hm0 h.num lo hi
  obtain ⟨v, v1, v2⟩ := (r.mul r).run.rel (mul_pos hp hp) (by norm_num)
  rw [← sq] at v2
  exact loop_off h1 h2 v1 v2 h.off

theorem mass_off {x : CFl binary64} {s : ℂ} {mq : Fl binary64} {μ : ℝ} (h1 : Is x.re s.re) (h2 : Is x.im s.im) (hm : Is mq μ) (h : LoopOff s (μ ^ 2)) :
    COff (x / (mq * mq)) 20 44 := by
  have hρ : 0 < μ ^ 2 := lt_of_lt_of_le (by norm_num) h.lo
  have hp : (10 : ℝ) ^ 12 ≤ 2 ^ 900 := le_trans (by norm_num : (10 : ℝ) ^ 12 ≤ 2 ^ 50) (pow_le_pow_right₀ (by norm_num) (by norm_num))
  have hl : (2 ^ 900 : ℝ)⁻¹ ≤ 1 / 10 ^ 12 := le_trans (inv_anti₀ (by positivity) (pow_le_pow_right₀ (by norm_num) (by norm_num : 50 ≤ 900))) (by norm_num)
  obtain ⟨v, v1, v2⟩ := round_half (y := μ ^ 2) (by rw [abs_of_pos hρ]; exact h.hi.trans hp) (by rw [abs_of_pos hρ]; exact hl.trans h.lo)
  have i : Is (mq * mq) v := (value_mul hm hm).trans (congrArg some (by rw [← sq]; exact v1))
  refine loop_off h1 h2 i (v2.trans ?_) h
  rw [abs_of_pos hρ]
  have := uu_small
  gcongr
  linarith

/-! ### Symmetry -/

theorem fold_mirror {L : CFl binary64 → CFl binary64} {x x' : CFl binary64} (hL : ∀ y y', COff y 20 44 → CMirror y y' → CMirror (L y) (L y')) (m : CMirror x x') :
    ∀ (l : List (ComputedQuark (Fl binary64))) (r r' : CFl binary64), (∀ q ∈ l, COff (x / q.mq_div_m_2) 20 44) → CMirror r r' →
      CMirror (l.foldl (fun (res : CFl binary64) (q : ComputedQuark (Fl binary64)) => res + L (x / q.mq_div_m_2) * q.nf_div_nc) r)
        (l.foldl (fun (res : CFl binary64) (q : ComputedQuark (Fl binary64)) => res + L (x' / q.mq_div_m_2) * q.nf_div_nc) r')
  | [], _, _, _, h => h
  | q :: l, r, r', hl, h => by
    rw [List.foldl_cons, List.foldl_cons]
    exact fold_mirror hL m l _ _ (fun p hp => hl p (List.mem_cons_of_mem _ hp)) (h.add (hL _ _ (hl q List.mem_cons_self) m.divR).mulR)

theorem quark_mirror {y y' : CFl binary64} (h : COff y 20 44) (m : CMirror y y') : CMirror (CFl.gluon.f_q y) (CFl.gluon.f_q y') := h.slits.mirror_quark m
theorem crossed_mirror {y y' : CFl binary64} (h : COff y 20 44) (m : CMirror y y') : CMirror (CFl.gluon.f_q_crossed y) (CFl.gluon.f_q_crossed y') :=
  h.slits.mirror_crossed m

section
variable {x x' : CFl binary64} (h : COff x 20 44) (m : CMirror x x') (c xi : Fl binary64)
include h m

theorem glue_mirror : CMirror (CFl.gluon.dressing_inv_landau x c) (CFl.gluon.dressing_inv_landau x' c) ∧
    CMirror (CFl.gluon.dressing_inv x c xi) (CFl.gluon.dressing_inv x' c xi) :=
  ⟨(h.slits.mirror_gluon m).addR, (h.slits.mirror_gluon m).addR.add (h.slits.mirror_gluon_xi m).mulR⟩

theorem config_mirror {config : ComputedConfig (Fl binary64)} (hq : ∀ q ∈ config.quarks_internal, COff (x / q.mq_div_m_2) 20 44) {F}
    (hF : F ∈ configInverses c xi config ++ configPropagators c xi config) : CMirror (F x) (F x') := by
  obtain ⟨g1, g2⟩ := glue_mirror h m c xi
  have a1 : CMirror (CFl.qcd.dressing_inv_landau_w_field_config x c config) (CFl.qcd.dressing_inv_landau_w_field_config x' c config) :=
    fold_mirror (fun _ _ => quark_mirror) m _ _ _ hq g1
  have a2 : CMirror (CFl.qcd.dressing_inv_w_field_config x c xi config) (CFl.qcd.dressing_inv_w_field_config x' c xi config) :=
    fold_mirror (fun _ _ => quark_mirror) m _ _ _ hq g2
  have a3 : CMirror (CFl.qcd.dressing_crossed_inv_landau_w_field_config x c config) (CFl.qcd.dressing_crossed_inv_landau_w_field_config x' c config) :=
    fold_mirror (fun _ _ => crossed_mirror) m _ _ _ hq g1
  have a4 : CMirror (CFl.qcd.dressing_crossed_inv_w_field_config x c xi config) (CFl.qcd.dressing_crossed_inv_w_field_config x' c xi config) :=
    fold_mirror (fun _ _ => crossed_mirror) m _ _ _ hq g2
  simp only [configInverses, configPropagators, List.cons_append, List.nil_append, List.mem_cons, List.not_mem_nil, or_false] at hF
  rcases hF with rfl | rfl | rfl | rfl | rfl | rfl | rfl | rfl | rfl | rfl | rfl | rfl
  exacts [a1, a2, a3, a4, a1.inv, a2.inv, a3.inv, a4.inv, a1.inv.div m, a2.inv.div m, a3.inv.div m, a4.inv.div m]

theorem global_mirror {mq : Fl binary64} (k : Fl binary64) (hq : COff (x / (mq * mq)) 20 44) {F}
    (hF : F ∈ globalInverses k mq c xi ++ globalPropagators k mq c xi) : CMirror (F x) (F x') := by
  obtain ⟨g1, g2⟩ := glue_mirror h m c xi
  have a1 : CMirror (CFl.qcd.dressing_inv_landau k x mq c) (CFl.qcd.dressing_inv_landau k x' mq c) := g1.add (quark_mirror hq m.divR).mulR
  have a2 : CMirror (CFl.qcd.dressing_inv k x mq c xi) (CFl.qcd.dressing_inv k x' mq c xi) := g2.add (quark_mirror hq m.divR).mulR
  have a3 : CMirror (CFl.qcd.dressing_crossed_inv_landau k x mq c) (CFl.qcd.dressing_crossed_inv_landau k x' mq c) := g1.add (crossed_mirror hq m.divR).mulR
  have a4 : CMirror (CFl.qcd.dressing_crossed_inv k x mq c xi) (CFl.qcd.dressing_crossed_inv k x' mq c xi) := g2.add (crossed_mirror hq m.divR).mulR
  simp only [globalInverses, globalPropagators, List.cons_append, List.nil_append, List.mem_cons, List.not_mem_nil, or_false] at hF
  rcases hF with rfl | rfl | rfl | rfl | rfl | rfl | rfl | rfl | rfl | rfl | rfl | rfl
  exacts [a1, a2, a3, a4, a1.inv, a2.inv, a3.inv, a4.inv, a1.inv.div m, a2.inv.div m, a3.inv.div m, a4.inv.div m]

end

theorem config_off {x : CFl binary64} {s : ℂ} {m : ℝ} {nc : ℕ} {qs : List (ℕ × ℝ)} (h1 : Is x.re s.re) (h2 : Is x.im s.im) (hm : Binary64 m) (hm0 : 0 < m)
    (hq : ∀ q ∈ qs, FlavourOff m s q) : ∀ q ∈ (quarkConfig nc m qs).quarks_internal, COff (x / q.mq_div_m_2) 20 44 := by
  intro q hq'
  simp only [quarkConfig, ComputedConfig.new, List.map_map, List.mem_map, Function.comp] at hq'
  obtain ⟨p, hp, rfl⟩ := hq'
  exact flavour_off h1 h2 hm hm0 (hq p hp)

/-! ### Sizes -/

/-- Bounds that are multiples of a power of two. -/
def Mult (a : Fl binary64) (n k : ℕ) : Prop := ∃ v : ℝ, Is a v ∧ |v| ≤ n * 2 ^ k

theorem b_mult {n k : ℕ} (hn : n ≤ 2 ^ 40) (hk : k ≤ 800) : Binary64 (n * 2 ^ k) := by
  refine ⟨n, k, ?_, by omega, by omega, by norm_num⟩
  rw [abs_of_nonneg (by positivity)]
  exact_mod_cast lt_of_le_of_lt hn (by norm_num)

theorem Mult.add {a b : Fl binary64} {n k : ℕ} (h : Mult a n k) (h' : Below b k) (hn : n + 1 ≤ 2 ^ 40) (hk : k ≤ 800) : Mult (a + b) (n + 1) k := by
  obtain ⟨u, u1, u2⟩ := h
  obtain ⟨v, v1, v2⟩ := h'
  obtain ⟨h1, h2⟩ := within (x := u + v) (b_mult hn hk) ((abs_add_le u v).trans (by push_cast; linarith))
  exact ⟨_, (value_add u1 v1).trans (congrArg some h1), h2⟩

theorem Below.mult {a : Fl binary64} {k : ℕ} (h : Below a k) : Mult a 1 k := by
  obtain ⟨v, v1, v2⟩ := h
  exact ⟨v, v1, by simpa using v2⟩

theorem Mult.below {a : Fl binary64} {n k j : ℕ} (h : Mult a n k) (hn : n ≤ 2 ^ j) : Below a (j + k) := by
  obtain ⟨v, v1, v2⟩ := h
  refine ⟨v, v1, v2.trans ?_⟩
  rw [pow_add]
  gcongr
  exact_mod_cast hn

theorem fold_size {L : CFl binary64 → CFl binary64} {x : CFl binary64} {k : ℕ} (hk : k ≤ 800) :
    ∀ (l : List (ComputedQuark (Fl binary64))) (r : CFl binary64) (n : ℕ), (∀ q ∈ l, CBelow (L (x / q.mq_div_m_2) * q.nf_div_nc) k) → n + l.length ≤ 2 ^ 40 →
      Mult r.re n k → Mult r.im n k →
      Mult (l.foldl (fun (res : CFl binary64) (q : ComputedQuark (Fl binary64)) => res + L (x / q.mq_div_m_2) * q.nf_div_nc) r).re (n + l.length) k ∧
        Mult (l.foldl (fun (res : CFl binary64) (q : ComputedQuark (Fl binary64)) => res + L (x / q.mq_div_m_2) * q.nf_div_nc) r).im (n + l.length) k
  | [], _, _, _, _, h1, h2 => ⟨h1, h2⟩
  | q :: l, r, n, hl, hn, h1, h2 => by
    rw [List.length_cons] at hn
    have hq := hl q List.mem_cons_self
    have := fold_size hk l (r + L (x / q.mq_div_m_2) * q.nf_div_nc) (n + 1) (fun p hp => hl p (List.mem_cons_of_mem _ hp)) (by omega)
      (h1.add hq.1 (by omega) hk) (h2.add hq.2 (by omega) hk)
    rw [List.foldl_cons, List.length_cons, show n + (l.length + 1) = n + 1 + l.length by omega]
    exact this

theorem ratio_below {nf nc : ℕ} (hf : nf ≤ 10 ^ 6) (hc : 1 ≤ nc) (hc' : nc ≤ 10 ^ 6) : Below ((ofR (nf : ℝ) : Fl binary64) / ofR (nc : ℝ)) 20 := by
  have f' : (nf : ℝ) ≤ 10 ^ 6 := by exact_mod_cast hf
  have c1 : (1 : ℝ) ≤ nc := by exact_mod_cast hc
  have c2 : (nc : ℝ) ≤ 10 ^ 6 := by exact_mod_cast hc'
  have a : Below (ofR (nf : ℝ) : Fl binary64) 20 := below_round (value_round _ _) (by rw [abs_of_nonneg (by positivity)]; exact f'.trans (by norm_num))
  have b : Amid (ofR (nc : ℝ) : Fl binary64) 20 0 := amid_round (value_round _ _) (by rw [abs_of_nonneg (by positivity)]; exact c2.trans (by norm_num))
    (by rw [abs_of_nonneg (by positivity)]; simpa using c1)
  exact a.div b

section
variable {x : CFl binary64} (h : COff x 20 44) {c xi : Fl binary64} (hc : Below c 300) (hx : Below xi 20)
include h hc hx

theorem glue_size : CBelow (CFl.gluon.dressing_inv_landau x c) 325 ∧ CBelow (CFl.gluon.dressing_inv x c xi) 325 :=
  ⟨inverses_size h hc hx (F := fun s => CFl.gluon.dressing_inv_landau s c) (by simp [inverses]),
    inverses_size h hc hx (F := fun s => CFl.gluon.dressing_inv s c xi) (by simp [inverses])⟩

theorem config_size {config : ComputedConfig (Fl binary64)} (hq : ∀ q ∈ config.quarks_internal, COff (x / q.mq_div_m_2) 20 44 ∧ Below q.nf_div_nc 20)
    (hl : config.quarks_internal.length ≤ 10 ^ 9) {F} (hF : F ∈ configInverses c xi config) : CBelow (F x) 751 := by
  obtain ⟨g1, g2⟩ := glue_size h hc hx
  have key : ∀ (L : CFl binary64 → CFl binary64), (∀ y, COff y 20 44 → CBelow (L y) 700) → ∀ r, CBelow r 325 →
      CBelow (config.quarks_internal.foldl (fun (res : CFl binary64) (q : ComputedQuark (Fl binary64)) => res + L (x / q.mq_div_m_2) * q.nf_div_nc) r) 751 := by
    intro L hL r hr
    obtain ⟨m1, m2⟩ := fold_size (L := L) (x := x) (k := 720) (by norm_num) config.quarks_internal r 1
      (fun q hq' => (hL _ (hq q hq').1).mulR (hq q hq').2) (by omega) (hr.1.mono (by norm_num)).mult (hr.2.mono (by norm_num)).mult
    exact ⟨m1.below (j := 31) (by omega), m2.below (j := 31) (by omega)⟩
  have k1 := key CFl.gluon.f_q (fun y hy => hy.size_quark.mono (by norm_num))
  have k2 := key CFl.gluon.f_q_crossed (fun y hy => hy.size_crossed)
  simp only [configInverses, List.mem_cons, List.not_mem_nil, or_false] at hF
  rcases hF with rfl | rfl | rfl | rfl
  exacts [k1 _ g1, k1 _ g2, k2 _ g1, k2 _ g2]

theorem global_size {k mq : Fl binary64} (hk : Below k 20) (hq : COff (x / (mq * mq)) 20 44) {F} (hF : F ∈ globalInverses k mq c xi) : CBelow (F x) 751 := by
  obtain ⟨g1, g2⟩ := glue_size h hc hx
  have k1 := hq.size_quark.mulR hk
  have k2 := hq.size_crossed.mulR hk
  simp only [globalInverses, List.mem_cons, List.not_mem_nil, or_false] at hF
  rcases hF with rfl | rfl | rfl | rfl
  exacts [(g1.add k1).mono (by norm_num), (g2.add k1).mono (by norm_num), (g1.add k2).mono (by norm_num), (g2.add k2).mono (by norm_num)]

end

theorem config_few {x : CFl binary64} {s : ℂ} {m : ℝ} {nc : ℕ} {qs : List (ℕ × ℝ)} (hn : 1 ≤ nc) (hn' : nc ≤ 10 ^ 6) (hq : ∀ q ∈ qs, FlavourOff m s q) :
    ∀ q ∈ (quarkConfig nc m qs).quarks_internal, Below q.nf_div_nc 20 := by
  intro q hq'
  simp only [quarkConfig, ComputedConfig.new, List.map_map, List.mem_map, Function.comp] at hq'
  obtain ⟨p, hp, rfl⟩ := hq'
  exact ratio_below (hq p hp).few hn hn'

theorem config_length {m : ℝ} {nc : ℕ} {qs : List (ℕ × ℝ)} : (quarkConfig nc m qs).quarks_internal.length = qs.length := by
  simp [quarkConfig, ComputedConfig.new]

/-! ### Theorems -/

/-- **C127** (inverse dressing functions): for any number of quarks, the inverse dressing functions off the real axis are finite, and exactly conjugate at
conjugate arguments. -/
theorem C127_inverses {x x' : CFl binary64} {s : ℂ} (h : OffAxis x s) (h' : OffAxis x' ((starRingEnd ℂ) s)) {m : ℝ} (hm : Binary64 m) (hm0 : 0 < m)
    {nc : ℕ} (hn : 1 ≤ nc) (hn' : nc ≤ 10 ^ 6) {qs : List (ℕ × ℝ)} (hl : qs.length ≤ 10 ^ 9) (hq : ∀ q ∈ qs, FlavourOff m s q) {c xi : Fl binary64} {c₀ xi₀ : ℝ}
    (hc : Is c c₀) (hb : |c₀| ≤ 10 ^ 90) (hxi : Is xi xi₀) (hx : |xi₀| ≤ 10 ^ 6) :
    ∀ F ∈ configInverses c xi (quarkConfig nc m qs), Conjugate (F x) (F x') := fun _ hF =>
  (config_size h.off ⟨_, hc, hb.trans pow_90⟩ ⟨_, hxi, hx.trans (by norm_num)⟩
    (fun q hq' => ⟨config_off h.re h.im hm hm0 hq q hq', config_few (x := x) hn hn' hq q hq'⟩) (config_length.trans_le hl) hF).conjugate
    (config_mirror h.off (h.mirror h') c xi (config_off h.re h.im hm hm0 hq) (List.mem_append_left _ hF))

/-- **C127** (dressing functions and propagators): whenever the computed value is a finite number, the value at the conjugate argument is its exact
conjugate. -/
theorem C127_propagators {x x' : CFl binary64} {s : ℂ} (h : OffAxis x s) (h' : OffAxis x' ((starRingEnd ℂ) s)) {m : ℝ} (hm : Binary64 m) (hm0 : 0 < m)
    (nc : ℕ) {qs : List (ℕ × ℝ)} (hq : ∀ q ∈ qs, FlavourOff m s q) (c xi : Fl binary64) :
    ∀ F ∈ configPropagators c xi (quarkConfig nc m qs), ∀ v : ℂ, Is (F x).re v.re → Is (F x).im v.im → Conjugate (F x) (F x') := fun _ hF _ h1 h2 =>
  (config_mirror h.off (h.mirror h') c xi (config_off h.re h.im hm hm0 hq) (List.mem_append_right _ hF)).conjugate h1 h2

/-- **C127** (one quark mass `μ`, gluon mass one): the inverse dressing functions are finite and exactly conjugate. -/
theorem C127_global_inverses {x x' : CFl binary64} {s : ℂ} (h : OffAxis x s) (h' : OffAxis x' ((starRingEnd ℂ) s)) {mq k c xi : Fl binary64} {μ k₀ c₀ xi₀ : ℝ}
    (hm : Is mq μ) (ho : LoopOff s (μ ^ 2)) (hk : Is k k₀) (hk' : |k₀| ≤ 10 ^ 6) (hc : Is c c₀) (hb : |c₀| ≤ 10 ^ 90) (hxi : Is xi xi₀) (hx : |xi₀| ≤ 10 ^ 6) :
    ∀ F ∈ globalInverses k mq c xi, Conjugate (F x) (F x') := fun _ hF =>
  (global_size h.off ⟨_, hc, hb.trans pow_90⟩ ⟨_, hxi, hx.trans (by norm_num)⟩ ⟨_, hk, hk'.trans (by norm_num)⟩ (mass_off h.re h.im hm ho) hF).conjugate
    (global_mirror h.off (h.mirror h') c xi k (mass_off h.re h.im hm ho) (List.mem_append_left _ hF))

/-- **C127** (one quark mass, dressing functions and propagators). -/
theorem C127_global_propagators {x x' : CFl binary64} {s : ℂ} (h : OffAxis x s) (h' : OffAxis x' ((starRingEnd ℂ) s)) {mq : Fl binary64} {μ : ℝ}
    (hm : Is mq μ) (ho : LoopOff s (μ ^ 2)) (k c xi : Fl binary64) :
    ∀ F ∈ globalPropagators k mq c xi, ∀ v : ℂ, Is (F x).re v.re → Is (F x).im v.im → Conjugate (F x) (F x') := fun _ hF _ h1 h2 =>
  (global_mirror h.off (h.mirror h') c xi k (mass_off h.re h.im hm ho) (List.mem_append_right _ hF)).conjugate h1 h2

/-! ### Spectral functions -/

/-- The argument next to the axis, of all loops. -/
theorem step_loop {x : ℝ} (hx : |x| ≤ 10 ^ 6) : ∃ e : ℝ, OffAxis ⟨num (x : EReal), Spec.step⟩ ⟨x, e⟩ ∧ OffAxis ⟨num (x : EReal), -Spec.step⟩ ((starRingEnd ℂ) ⟨x, e⟩) ∧
    ∀ ρ : ℝ, 1 / 10 ^ 12 ≤ ρ → ρ ≤ 9 → |x| / ρ ≤ 10 ^ 6 → LoopOff ⟨x, e⟩ ρ := by
  obtain ⟨e, he, h1, h2⟩ := step_eq
  have h0 : 0 < e := lt_trans (by positivity) h1
  have i : Is Spec.step e := by rw [he]; rfl
  have b1 : (1 : ℝ) / 10 ^ 13 ≤ e := by norm_num at h1 ⊢; linarith
  have b2 : e ≤ 10 ^ 6 := by norm_num at h2 ⊢; linarith
  refine ⟨e, ⟨rfl, i, hx, by simpa [abs_of_pos h0] using b1, by simpa [abs_of_pos h0] using b2⟩,
    ⟨rfl, value_neg i, hx, by simpa [abs_of_pos h0] using b1, by simpa [abs_of_pos h0] using b2⟩, fun ρ r1 r2 r3 => ?_⟩
  have r0 : 0 < ρ := lt_of_lt_of_le (by norm_num) r1
  refine ⟨r1, r2.trans (by norm_num), r3, ?_, ?_⟩
  · show 1 / 10 ^ 13 ≤ |e| / ρ
    rw [abs_of_pos h0, le_div_iff₀ r0]
    norm_num at h1 ⊢
    linarith
  · show |e| / ρ ≤ 10 ^ 6
    rw [abs_of_pos h0, div_le_iff₀ r0]
    norm_num at h2 r1 ⊢
    linarith

theorem spectral_of_size' {F : CFl binary64 → CFl binary64} {x : ℝ} (hb : Binary64 x)
    (m : CMirror (F ⟨num (x : EReal), Spec.step⟩) (F ⟨num (x : EReal), -Spec.step⟩)) (hs : CBelow (F ⟨num (x : EReal), Spec.step⟩) 751) :
    ∃ v : ℝ, Is (F ⟨num (x : EReal), Spec.step⟩).im v ∧ SpectralIs F x v := by
  obtain ⟨⟨u, u1, -⟩, v, v1, v2⟩ := hs
  refine ⟨v, v1, spectral_of hb m u1 v1 (within (b_two (by norm_num : 752 ≤ 900)) ?_).1⟩
  rw [abs_mul, abs_two, pow_succ]
  linarith

/-- **C127** (spectral functions): with quarks, of masses up to three times the gluon mass, the spectral functions of the inverse dressing functions are
computed without imaginary part, from the value next to the axis. -/
theorem C127_spectral {x : ℝ} (hb : Binary64 x) (hx : |x| ≤ 10 ^ 6) {m : ℝ} (hm : Binary64 m) (hm0 : 0 < m) {nc : ℕ} (hn : 1 ≤ nc) (hn' : nc ≤ 10 ^ 6)
    {qs : List (ℕ × ℝ)} (hl : qs.length ≤ 10 ^ 9)
    (hq : ∀ q ∈ qs, q.1 ≤ 10 ^ 6 ∧ Binary64 q.2 ∧ 1 / 10 ^ 6 ≤ q.2 / m ∧ q.2 / m ≤ 3 ∧ |x| / (q.2 / m) ^ 2 ≤ 10 ^ 6) {c xi : Fl binary64} {c₀ xi₀ : ℝ}
    (hc : Is c c₀) (hc' : |c₀| ≤ 10 ^ 90) (hxi : Is xi xi₀) (hxi' : |xi₀| ≤ 10 ^ 6) :
    ∀ F ∈ configInverses c xi (quarkConfig nc m qs), ∃ v : ℝ, Is (F ⟨num (x : EReal), Spec.step⟩).im v ∧ SpectralIs F x v := by
  obtain ⟨e, h, h', hr⟩ := step_loop hx
  have hq' : ∀ q ∈ qs, FlavourOff m ⟨x, e⟩ q := fun q hq' => by
    obtain ⟨q1, q2, q3, q4, q5⟩ := hq q hq'
    have p : 0 < q.2 / m := lt_of_lt_of_le (by norm_num) q3
    refine ⟨q1, q2, (div_pos_iff_of_pos_right hm0).1 p, hr _ ?_ ?_ q5⟩
    · exact le_trans (by norm_num) (pow_le_pow_left₀ (by norm_num) q3 2)
    · exact (pow_le_pow_left₀ p.le q4 2).trans (by norm_num)
  intro F hF
  exact spectral_of_size' hb (config_mirror h.off (h.mirror h') c xi (config_off h.re h.im hm hm0 hq') (List.mem_append_left _ hF))
    (config_size h.off ⟨_, hc, hc'.trans pow_90⟩ ⟨_, hxi, hxi'.trans (by norm_num)⟩
      (fun q hq'' => ⟨config_off h.re h.im hm hm0 hq' q hq'', config_few (x := ⟨num (x : EReal), Spec.step⟩) hn hn' hq' q hq''⟩) (config_length.trans_le hl) hF)

/-- **C127** (spectral functions of the propagators): the same for dressing functions and propagators, whenever the value next to the axis is finite and
its double does not overflow. -/
theorem C127_propagator_spectral {x : ℝ} (hb : Binary64 x) (hx : |x| ≤ 10 ^ 6) {m : ℝ} (hm : Binary64 m) (hm0 : 0 < m) (nc : ℕ) {qs : List (ℕ × ℝ)}
    (hq : ∀ q ∈ qs, q.1 ≤ 10 ^ 6 ∧ Binary64 q.2 ∧ 1 / 10 ^ 6 ≤ q.2 / m ∧ q.2 / m ≤ 3 ∧ |x| / (q.2 / m) ^ 2 ≤ 10 ^ 6) (c xi : Fl binary64) :
    ∀ F ∈ configPropagators c xi (quarkConfig nc m qs), ∀ u v w : ℝ, Is (F ⟨num (x : EReal), Spec.step⟩).re u → Is (F ⟨num (x : EReal), Spec.step⟩).im v →
      binary64.rnd (2 * v) = (w : EReal) → SpectralIs F x v := by
  obtain ⟨e, h, h', hr⟩ := step_loop hx
  have hq' : ∀ q ∈ qs, FlavourOff m ⟨x, e⟩ q := fun q hq' => by
    obtain ⟨q1, q2, q3, q4, q5⟩ := hq q hq'
    have p : 0 < q.2 / m := lt_of_lt_of_le (by norm_num) q3
    refine ⟨q1, q2, (div_pos_iff_of_pos_right hm0).1 p, hr _ ?_ ?_ q5⟩
    · exact le_trans (by norm_num) (pow_le_pow_left₀ (by norm_num) q3 2)
    · exact (pow_le_pow_left₀ p.le q4 2).trans (by norm_num)
  intro F hF u v w hu hv hw
  exact spectral_of hb (config_mirror h.off (h.mirror h') c xi (config_off h.re h.im hm hm0 hq') (List.mem_append_right _ hF)) hu hv hw

/-- **C127** (spectral functions, one quark mass): the same for the functions of one quark mass, between `10^-6` and three gluon masses. -/
theorem C127_global_spectral {x μ : ℝ} (hb : Binary64 x) (hx : |x| ≤ 10 ^ 6) {mq k c xi : Fl binary64} {k₀ c₀ xi₀ : ℝ} (hm : Is mq μ) (hm0 : 1 / 10 ^ 6 ≤ μ)
    (hm1 : μ ≤ 3) (hm2 : |x| / μ ^ 2 ≤ 10 ^ 6) (hk : Is k k₀) (hk' : |k₀| ≤ 10 ^ 6) (hc : Is c c₀) (hc' : |c₀| ≤ 10 ^ 90) (hxi : Is xi xi₀) (hxi' : |xi₀| ≤ 10 ^ 6) :
    (∀ F ∈ globalInverses k mq c xi, ∃ v : ℝ, Is (F ⟨num (x : EReal), Spec.step⟩).im v ∧ SpectralIs F x v) ∧
    ∀ F ∈ globalPropagators k mq c xi, ∀ u v w : ℝ, Is (F ⟨num (x : EReal), Spec.step⟩).re u → Is (F ⟨num (x : EReal), Spec.step⟩).im v →
      binary64.rnd (2 * v) = (w : EReal) → SpectralIs F x v := by
  obtain ⟨e, h, h', hr⟩ := step_loop hx
  have p : 0 < μ := lt_of_lt_of_le (by norm_num) hm0
  have ho := mass_off h.re h.im hm (hr _ (le_trans (by norm_num) (pow_le_pow_left₀ (by norm_num) hm0 2)) ((pow_le_pow_left₀ p.le hm1 2).trans (by norm_num)) hm2)
  refine ⟨fun F hF => ?_, fun F hF u v w hu hv hw => ?_⟩
  · exact spectral_of_size' hb (global_mirror h.off (h.mirror h') c xi k ho (List.mem_append_left _ hF))
      (global_size h.off ⟨_, hc, hc'.trans pow_90⟩ ⟨_, hxi, hxi'.trans (by norm_num)⟩ ⟨_, hk, hk'.trans (by norm_num)⟩ ho hF)
  · exact spectral_of hb (global_mirror h.off (h.mirror h') c xi k ho (List.mem_append_right _ hF)) hu hv hw

/-! ### Cases: next to the cut of the light quarks, with two flavours of mass 1/2 and one of mass 2 -/

theorem b_half : Binary64 (1 / 2) := ⟨1, -1, by norm_num, by norm_num, by norm_num, by norm_num⟩
theorem b_one' : Binary64 1 := ⟨1, 0, by norm_num, by norm_num, by norm_num, by norm_num⟩
theorem b_two' : Binary64 2 := ⟨2, 0, by norm_num, by norm_num, by norm_num, by norm_num⟩

theorem case_flavours : ∀ q ∈ [((2 : ℕ), (1 / 2 : ℝ)), (1, 2)], FlavourOff 1 ⟨-2, (2 ^ 40)⁻¹⟩ q := by
  intro q hq
  simp only [List.mem_cons, List.not_mem_nil, or_false] at hq
  rcases hq with rfl | rfl
  · exact ⟨by norm_num, b_half, by norm_num, by norm_num, by norm_num, by norm_num, by norm_num, by norm_num⟩
  · exact ⟨by norm_num, b_two', by norm_num, by norm_num, by norm_num, by norm_num, by norm_num, by norm_num⟩

theorem case_masses : ∀ q ∈ [((2 : ℕ), (1 / 2 : ℝ)), (1, 2)], q.1 ≤ 10 ^ 6 ∧ Binary64 q.2 ∧ 1 / 10 ^ 6 ≤ q.2 / 1 ∧ q.2 / 1 ≤ 3 ∧ |(-2 : ℝ)| / (q.2 / 1) ^ 2 ≤ 10 ^ 6 := by
  intro q hq
  simp only [List.mem_cons, List.not_mem_nil, or_false] at hq
  rcases hq with rfl | rfl
  · exact ⟨by norm_num, b_half, by norm_num, by norm_num, by norm_num⟩
  · exact ⟨by norm_num, b_two', by norm_num, by norm_num, by norm_num⟩

example := C127_inverses case_cut.1 case_cut.2 b_one' one_pos (nc := 3) (by norm_num) (by norm_num) (by norm_num) case_flavours
  (c := num ((-1 : ℝ) : EReal)) (xi := num ((3 : ℝ) : EReal)) rfl (by norm_num) rfl (by norm_num)
example := C127_propagators case_cut.1 case_cut.2 b_one' one_pos 3 case_flavours (num ((-1 : ℝ) : EReal)) (num ((3 : ℝ) : EReal))
example := C127_global_inverses case_cut.1 case_cut.2 (mq := num ((1 / 2 : ℝ) : EReal)) (k := num ((1 / 4 : ℝ) : EReal)) (c := num ((-1 : ℝ) : EReal))
  (xi := num ((3 : ℝ) : EReal)) rfl ⟨by norm_num, by norm_num, by norm_num, by norm_num, by norm_num⟩ rfl (by norm_num [abs_of_pos]) rfl (by norm_num) rfl (by norm_num)
example := C127_global_propagators case_cut.1 case_cut.2 (mq := num ((1 / 2 : ℝ) : EReal)) rfl ⟨by norm_num, by norm_num, by norm_num, by norm_num, by norm_num⟩
  (num ((1 / 4 : ℝ) : EReal)) (num ((-1 : ℝ) : EReal)) (num ((3 : ℝ) : EReal))
example := C127_spectral b_minus_two (by norm_num) b_one' one_pos (nc := 3) (by norm_num) (by norm_num) (by norm_num) case_masses
  (c := num ((-1 : ℝ) : EReal)) (xi := num ((3 : ℝ) : EReal)) rfl (by norm_num) rfl (by norm_num)
example := C127_propagator_spectral b_minus_two (by norm_num) b_one' one_pos 3 case_masses (num ((-1 : ℝ) : EReal)) (num ((3 : ℝ) : EReal))

example := C127_global_spectral b_minus_two (by norm_num) (μ := 1 / 2) (mq := num ((1 / 2 : ℝ) : EReal)) (k := num ((1 / 4 : ℝ) : EReal)) (c := num ((-1 : ℝ) : EReal))
  (xi := num ((3 : ℝ) : EReal)) rfl (by norm_num) (by norm_num) (by norm_num) rfl (by norm_num [abs_of_pos]) rfl (by norm_num) rfl (by norm_num)

end Qcd
