import Verif.Spec.Build

/-! # Helpers for the build script -/

namespace Qcd.build
open Spec

/-- What a piece matches. -/
def Piece.Matches : Piece → Text → Prop
  | .lit s, d => d = s
  | .spaces1, d => Blank d ∧ d ≠ []
  | .spaces0, d => Blank d

/-- What an expression matches. -/
def Matches : List Piece → Text → Prop
  | [], d => d = []
  | p :: ps, d => ∃ u v, p.Matches u ∧ Matches ps v ∧ d = u ++ v

/-- Spaces are followed by a literal that does not begin with a space. -/
def Wf : List Piece → Prop
  | [] => True
  | .lit _ :: ps => Wf ps
  | .spaces1 :: .lit (c :: s) :: ps => isSpace c = false ∧ Wf (.lit (c :: s) :: ps)
  | .spaces0 :: .lit (c :: s) :: ps => isSpace c = false ∧ Wf (.lit (c :: s) :: ps)
  | _ => False

theorem blank_dropWhile {u : Text} (hu : Blank u) {c : Char} (hc : isSpace c = false) (t : Text) : (u ++ c :: t).dropWhile isSpace = c :: t := by
  induction u with
  | nil => simp [hc]
  | cons d u ih => rw [List.cons_append, List.dropWhile_cons, if_pos (hu d (by simp))]; exact ih fun x hx => hu x (by simp [hx])

theorem blank_split (t : Text) : ∃ u, Blank u ∧ t = u ++ t.dropWhile isSpace :=
  ⟨t.takeWhile isSpace, List.all_eq_true.1 List.all_takeWhile, List.takeWhile_append_dropWhile.symm⟩

theorem strip_sound : ∀ (ps : List Piece) (t b : Text), strip ps t = some b → ∃ d, Matches ps d ∧ t = d ++ b
  | [], t, b, h => by simp only [strip, Option.some.injEq] at h; exact ⟨[], rfl, by simp [h]⟩
  | p :: ps, t, b, h => by
    simp only [strip, Option.bind_eq_some_iff] at h
    obtain ⟨t', h1, h2⟩ := h
    obtain ⟨d, hd, rfl⟩ := strip_sound ps t' b h2
    cases p with
    | lit s =>
      simp only [Piece.strip] at h1
      split at h1
      · next hp =>
        obtain ⟨r, rfl⟩ := List.isPrefixOf_iff_prefix.1 hp
        simp only [List.drop_left, Option.some.injEq] at h1
        exact ⟨s ++ d, ⟨s, d, rfl, hd, rfl⟩, by rw [h1, List.append_assoc]⟩
      · cases h1
    | spaces1 =>
      cases t with
      | nil => cases h1
      | cons c t =>
        simp only [Piece.strip] at h1
        split at h1
        · next hc =>
          simp only [Option.some.injEq] at h1
          obtain ⟨u, hu, e⟩ := blank_split t
          rw [h1] at e
          refine ⟨c :: u ++ d, ⟨c :: u, d, ⟨?_, by simp⟩, hd, rfl⟩, by rw [e]; simp⟩
          intro x hx
          rcases List.mem_cons.1 hx with rfl | hx
          exacts [hc, hu x hx]
        · cases h1
    | spaces0 =>
      simp only [Piece.strip, Option.some.injEq] at h1
      obtain ⟨u, hu, e⟩ := blank_split t
      rw [h1] at e
      exact ⟨u ++ d, ⟨u, d, hu, hd, rfl⟩, by rw [e]; simp⟩

theorem strip_complete : ∀ (ps : List Piece), Wf ps → ∀ d b : Text, Matches ps d → strip ps (d ++ b) = some b
  | [], _, d, b, h => by cases h; rfl
  | .lit s :: ps, hw, d, b, ⟨u, v, hu, hv, e⟩ => by
    cases hu
    subst e
    rw [strip, Piece.strip, if_pos (by rw [List.isPrefixOf_iff_prefix, List.append_assoc]; exact List.prefix_append _ _), List.append_assoc, List.drop_left]
    exact strip_complete ps hw v b hv
  | .spaces1 :: .lit (c :: s) :: ps, hw, d, b, ⟨u, v, hu, hv, e⟩ => by
    subst e
    have ih := strip_complete (.lit (c :: s) :: ps) hw.2 v b hv
    obtain ⟨u', v', hu', hv', rfl⟩ := hv
    cases hu'
    obtain ⟨hb, hn⟩ := hu
    cases u with
    | nil => exact absurd rfl hn
    | cons x u =>
      rw [strip, List.cons_append, List.cons_append, Piece.strip, if_pos (hb x (by simp)), Option.bind_some]
      have := blank_dropWhile (fun y hy => hb y (by simp [hy])) hw.1 (u := u) (s ++ (v' ++ b))
      simp only [List.append_assoc, List.cons_append] at this ih ⊢
      rw [this]
      exact ih
  | .spaces0 :: .lit (c :: s) :: ps, hw, d, b, ⟨u, v, hu, hv, e⟩ => by
    subst e
    have ih := strip_complete (.lit (c :: s) :: ps) hw.2 v b hv
    obtain ⟨u', v', hu', hv', rfl⟩ := hv
    cases hu'
    rw [strip, Piece.strip, Option.bind_some]
    have := blank_dropWhile hu hw.1 (s ++ (v' ++ b))
    simp only [List.append_assoc, List.cons_append] at this ih ⊢
    rw [this]
    exact ih

theorem wf_regex (l : Lang) : Wf (regex l) := by cases l <;> refine ⟨by decide, by decide, ?_⟩ <;> first | exact ⟨by decide, trivial⟩ | exact ⟨by decide, by decide, trivial⟩

theorem alias_iff (l : Lang) (d : Text) : Alias l d ↔ Matches (regex l) d := by
  cases l <;> simp only [Alias, regex, Matches, Piece.Matches] <;> constructor
  · rintro ⟨u, v, w, h1, h2, h3, h4, h5, rfl⟩
    exact ⟨_, _, rfl, ⟨u, _, ⟨h1, h4⟩, ⟨_, _, rfl, ⟨v, _, ⟨h2, h5⟩, ⟨_, _, rfl, ⟨w, _, h3, ⟨_, _, rfl, rfl, rfl⟩, rfl⟩, rfl⟩, rfl⟩, rfl⟩, rfl⟩, by simp⟩
  · rintro ⟨_, _, rfl, ⟨u, _, ⟨h1, h4⟩, ⟨_, _, rfl, ⟨v, _, ⟨h2, h5⟩, ⟨_, _, rfl, ⟨w, _, h3, ⟨_, _, rfl, rfl, rfl⟩, rfl⟩, rfl⟩, rfl⟩, rfl⟩, rfl⟩, rfl⟩
    exact ⟨u, v, w, h1, h2, h3, h4, h5, by simp⟩
  · rintro ⟨u, v, x, w, h1, h2, h3, h4, h5, h6, h7, rfl⟩
    exact ⟨_, _, rfl, ⟨u, _, ⟨h1, h5⟩, ⟨_, _, rfl, ⟨v, _, ⟨h2, h6⟩, ⟨_, _, rfl, ⟨x, _, ⟨h3, h7⟩, ⟨_, _, rfl, ⟨w, _, h4, ⟨_, _, rfl, rfl, rfl⟩, rfl⟩, rfl⟩, rfl⟩, rfl⟩, rfl⟩, rfl⟩, rfl⟩,
      by simp⟩
  · rintro ⟨_, _, rfl, ⟨u, _, ⟨h1, h5⟩, ⟨_, _, rfl, ⟨v, _, ⟨h2, h6⟩, ⟨_, _, rfl, ⟨x, _, ⟨h3, h7⟩, ⟨_, _, rfl, ⟨w, _, h4, ⟨_, _, rfl, rfl, rfl⟩, rfl⟩, rfl⟩, rfl⟩, rfl⟩, rfl⟩, rfl⟩,
      rfl⟩, rfl⟩
    exact ⟨u, v, x, w, h1, h2, h3, h4, h5, h6, h7, by simp⟩
  · rintro ⟨u, v, w, h1, h2, h3, h4, h5, rfl⟩
    exact ⟨_, _, rfl, ⟨u, _, ⟨h1, h4⟩, ⟨_, _, rfl, ⟨v, _, ⟨h2, h5⟩, ⟨_, _, rfl, ⟨w, _, h3, ⟨_, _, rfl, rfl, rfl⟩, rfl⟩, rfl⟩, rfl⟩, rfl⟩, rfl⟩, by simp⟩
  · rintro ⟨_, _, rfl, ⟨u, _, ⟨h1, h4⟩, ⟨_, _, rfl, ⟨v, _, ⟨h2, h5⟩, ⟨_, _, rfl, ⟨w, _, h3, ⟨_, _, rfl, rfl, rfl⟩, rfl⟩, rfl⟩, rfl⟩, rfl⟩, rfl⟩, rfl⟩
    exact ⟨u, v, w, h1, h2, h3, h4, h5, by simp⟩

theorem strip_alias {l : Lang} {d : Text} (h : Alias l d) (b : Text) : strip (regex l) (d ++ b) = some b :=
  strip_complete _ (wf_regex l) d b ((alias_iff l d).1 h)

theorem alias_strip {l : Lang} {t b : Text} (h : strip (regex l) t = some b) : ∃ d, Alias l d ∧ t = d ++ b := by
  obtain ⟨d, h1, h2⟩ := strip_sound _ _ _ h
  exact ⟨d, (alias_iff l d).2 h1, h2⟩

theorem alias_ne {l : Lang} {d : Text} (h : Alias l d) : d ≠ [] := by
  rintro rfl
  cases l <;> simp [Alias] at h

/-- The leftmost declaration is found. -/
theorem find_first {l : Lang} {d b : Text} (hd : Alias l d) : ∀ a : Text,
    (∀ a' d' b', AliasAt l (a ++ d ++ b) a' d' b' → a.length ≤ a'.length) → find (regex l) (a ++ d ++ b) = some (a, b)
  | [], _ => by
    obtain ⟨c, d', rfl⟩ := List.exists_cons_of_ne_nil (alias_ne hd)
    have := strip_alias hd b
    simp only [List.nil_append, List.cons_append] at this ⊢
    rw [find, this]
  | c :: a, h => by
    have hn : strip (regex l) (c :: (a ++ d ++ b)) = none := by
      by_contra hc
      obtain ⟨b', hb'⟩ := Option.ne_none_iff_exists'.1 hc
      obtain ⟨d', h1, h2⟩ := alias_strip hb'
      have := h [] d' b' ⟨h1, by simpa using h2⟩
      simp at this
    have ih := find_first hd a (b := b) fun a' d' b' ⟨h1, h2⟩ => by
      have := h (c :: a') d' b' ⟨h1, by simp only [List.cons_append, h2]⟩
      simpa using this
    simp only [List.cons_append]
    rw [find, hn]
    simp only [ih, Option.map_some]

theorem find_none {l : Lang} : ∀ t : Text, Free l t → find (regex l) t = none
  | [], _ => by cases l <;> rfl
  | c :: t, h => by
    have hn : strip (regex l) (c :: t) = none := by
      by_contra hc
      obtain ⟨b', hb'⟩ := Option.ne_none_iff_exists'.1 hc
      obtain ⟨d', h1, h2⟩ := alias_strip hb'
      exact h [] d' b' ⟨h1, by simpa using h2⟩
    rw [find, hn]
    simp only [find_none t fun a d b ⟨h1, h2⟩ => h (c :: a) d b ⟨h1, by simp only [List.cons_append, h2]⟩, Option.map_none]

theorem blank_not {w : Text} (h : Blank w) {c : Char} (hc : isSpace c = false) : c ∉ w := fun hm => by simp [h c hm] at hc

/-- A semicolon ends the declaration, which contains an angle bracket and no curly bracket or colon. -/
theorem alias_chars {l : Lang} {d : Text} (h : Alias l d) : (∃ e, d = e ++ [';'] ∧ ';' ∉ e) ∧ '<' ∈ d ∧ '{' ∉ d ∧ ':' ∉ d := by
  have s1 : isSpace ';' = false := by decide
  have s2 : isSpace '{' = false := by decide
  have s3 : isSpace ':' = false := by decide
  cases l
  · obtain ⟨u, v, w, h1, h2, h3, -, -, rfl⟩ := h
    refine ⟨⟨_, rfl, ?_⟩, ?_, ?_, ?_⟩ <;> simp [blank_not h1, blank_not h2, blank_not h3, s1, s2, s3]
  · obtain ⟨u, v, x, w, h1, h2, h3, h4, -, -, -, rfl⟩ := h
    refine ⟨⟨_, rfl, ?_⟩, ?_, ?_, ?_⟩ <;> simp [blank_not h1, blank_not h2, blank_not h3, blank_not h4, s1, s2, s3]
  · obtain ⟨u, v, w, h1, h2, h3, -, -, rfl⟩ := h
    refine ⟨⟨_, rfl, ?_⟩, ?_, ?_, ?_⟩ <;> simp [blank_not h1, blank_not h2, blank_not h3, s1, s2, s3]

/-- The same characters in the replacement. -/
theorem replacement_chars (l : Lang) : ∃ x r0 r1, (x = '{' ∨ x = ':') ∧ replacement l = r0 ++ x :: r1 ∧ ';' ∉ r0 ∧ '<' ∉ replacement l ∧
    (∃ r, replacement l = r ++ [';']) := by
  cases l
  · exact ⟨'{', "struct Complex ".toList, "R re; R im;};\n\ntypedef struct Complex C;".toList, .inl rfl, by decide, by decide, by decide,
      "struct Complex {R re; R im;};\n\ntypedef struct Complex C".toList, by decide⟩
  · exact ⟨'{', "struct Complex ".toList, "R re; R im;};\n\nusing C = Complex;".toList, .inl rfl, by decide, by decide, by decide,
      "struct Complex {R re; R im;};\n\nusing C = Complex".toList, by decide⟩
  · exact ⟨':', "cdef struct Complex".toList, "\n    double re;\n    double im;\n\n  ctypedef Complex C;".toList, .inr rfl, by decide, by decide, by decide,
      "cdef struct Complex:\n    double re;\n    double im;\n\n  ctypedef Complex C".toList, by decide⟩

/-- Replacing the only declaration leaves none. -/
theorem free_rewrite {l : Lang} {a d b : Text} (hu : ∀ a' d' b', AliasAt l (a ++ d ++ b) a' d' b' → a' = a) (hd : Alias l d) :
    Free l (a ++ replacement l ++ b) := by
  intro a' d' b' ⟨hd', he⟩
  obtain ⟨x, r0, r1, hx, hr, h0, hl, r, hr'⟩ := replacement_chars l
  obtain ⟨⟨e, he1, he2⟩, hlt, hc1, hc2⟩ := alias_chars hd'
  have hx' : x ∉ d' := by rcases hx with rfl | rfl <;> assumption
  have hb : ∀ w z, b ≠ w ++ d' ++ z := by
    intro w z hz
    have := hu (a ++ d ++ w) d' z ⟨hd', by rw [hz]; simp⟩
    have := congrArg List.length this
    have h1 := List.length_pos_iff.2 (alias_ne hd)
    simp only [List.length_append] at this
    omega
  have ha : ∀ z, a ≠ a' ++ d' ++ z := by
    intro z hz
    have := hu a' d' (z ++ d ++ b) ⟨hd', by rw [hz]; simp⟩
    rw [← this] at hz
    have := congrArg List.length hz
    have h1 := List.length_pos_iff.2 (alias_ne hd')
    simp only [List.length_append] at this
    omega
  rw [List.append_assoc, List.append_assoc, List.append_eq_append_iff] at he
  rcases he with ⟨u, rfl, h1⟩ | ⟨u, rfl, h1⟩
  · -- a' = a ++ u
    rw [List.append_eq_append_iff] at h1
    rcases h1 with ⟨w, rfl, h2⟩ | ⟨v, h2, h3⟩
    · exact hb w b' (by rw [h2]; simp)
    · -- replacement = u ++ v, d' ++ b' = v ++ b
      rw [List.append_eq_append_iff] at h3
      rcases h3 with ⟨w, h4, h5⟩ | ⟨w, h4, h5⟩
      · -- v = d' ++ w
        exact hl (by rw [h2, h4]; simp [hlt])
      · -- d' = v ++ w, b = w ++ b'
        rcases List.eq_nil_or_concat v with rfl | ⟨v', y, rfl⟩
        · exact hb [] b' (by rw [h5, h4]; simp)
        · have hy : y = ';' := by
            rw [hr', List.concat_eq_append, ← List.append_assoc] at h2
            have := List.append_inj_right' h2 rfl
            simpa using this.symm
          subst hy
          rw [List.concat_eq_append] at h4 h2
          rcases List.eq_nil_or_concat w with rfl | ⟨w', z, rfl⟩
          · rw [List.append_nil] at h4
            exact hl (by rw [h2, ← h4]; simp [hlt])
          · rw [List.concat_eq_append, he1, ← List.append_assoc] at h4
            have := List.append_inj_left' h4 rfl
            exact he2 (by rw [this]; simp)
  · -- a = a' ++ u, d' ++ b' = u ++ (replacement ++ b)
    rw [List.append_eq_append_iff] at h1
    rcases h1 with ⟨w, rfl, h2⟩ | ⟨w, h2, h3⟩
    · exact ha w (by simp)
    · -- d' = u ++ w, replacement ++ b = w ++ b'
      rcases List.eq_nil_or_concat w with rfl | ⟨w', y, rfl⟩
      · exact ha [] (by rw [h2]; simp)
      · rw [List.concat_eq_append] at h2 h3
        have hy : y = ';' := by
          rw [he1, ← List.append_assoc] at h2
          have := List.append_inj_right' h2 rfl
          simpa using this.symm
        subst hy
        rw [hr, List.append_assoc, List.append_eq_append_iff] at h3
        rcases h3 with ⟨z, h4, h5⟩ | ⟨z, h4, h5⟩
        · cases z with
          | nil =>
            rw [List.append_nil] at h4
            exact h0 (by rw [← h4]; simp)
          | cons q z =>
            simp only [List.cons_append, List.cons.injEq] at h5
            exact hx' (by rw [h2, h4, h5.1]; simp)
        · exact h0 (by rw [h4]; simp)

end Qcd.build
