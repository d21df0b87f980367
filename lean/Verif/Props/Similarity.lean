import Verif.Spec.Similarity
import Verif.Props.ProfileMotion
import Verif.Props.ProfileEdges

/-! # C143: sequences of plane motions -/

namespace BladeX
open Spec

namespace Profile

theorem referencePoint_closed {P : Profile} (hU : P.Uniform) {a b : Pt} (hE : P.Ends a b a b) : P.referencePoint = .ok (mid a b) := by
  rw [Profile.referencePoint_ends ⟨hU.1, hU.2.2⟩ hE, if_neg (by norm_num)]
  congr 2; ext <;> simp

theorem rot_lin (t : ℝ) (p q : Pt) : rot t (p.1 - q.1, p.2 - q.2) = ((rot t p).1 - (rot t q).1, (rot t p).2 - (rot t q).2) := by
  ext <;> simp [rot] <;> ring

theorem translate_uniform' {P : Profile} (v : Pt) (h : P.Uniform) : (P.translate v).Uniform := by
  simpa [Profile.Uniform, Profile.translate] using h

theorem mulAll_uniform' {P : Profile} (f : ℝ) (h : P.Uniform) : (P.mulAll f).Uniform := by
  simpa [Profile.Uniform, Profile.mulAll] using h

/-- One call on a closed foil. -/
theorem motion_step {P : Profile} (hU : P.Uniform) {a b : Pt} (hE : P.Ends a b a b) (m : Motion) (hv : m.Valid) :
    ∃ Q, m.run P = .ok Q ∧ Q.Uniform ∧ Q.par = P.par ∧
      Q.upper = P.upper.map (similarity (mid a b) (m.centre (mid a b)) m.factor m.angle) ∧
      Q.lower = P.lower.map (similarity (mid a b) (m.centre (mid a b)) m.factor m.angle) := by
  rcases m with v | ⟨r, d⟩ | ⟨f, fl⟩ | _
  · refine ⟨P.translate v, rfl, translate_uniform' v hU, rfl, ?_, ?_⟩
    · rw [(C01_translate_points P v).1]
      congr 1; funext p
      ext <;> simp [similarity, Motion.centre, Motion.factor, Motion.angle, rot] <;> ring
    · rw [(C01_translate_points P v).2.1]
      congr 1; funext p
      ext <;> simp [similarity, Motion.centre, Motion.factor, Motion.angle, rot] <;> ring
  · have key : ∀ t : ℝ, (Motion.rotate r d).angle = t → P.rotate r d = P.rotate (some t) none →
        ∃ Q, (Motion.rotate r d).run P = .ok Q ∧ Q.Uniform ∧ Q.par = P.par ∧
          Q.upper = P.upper.map (similarity (mid a b) ((Motion.rotate r d).centre (mid a b)) (Motion.rotate r d).factor (Motion.rotate r d).angle) ∧
          Q.lower = P.lower.map (similarity (mid a b) ((Motion.rotate r d).centre (mid a b)) (Motion.rotate r d).factor (Motion.rotate r d).angle) := by
      intro t ht hr
      obtain ⟨Q, hQ, hu, hl, hQU, _, hp⟩ := Profile.rotate_uniform P hU t
      have e : rot t = similarity (mid a b) ((Motion.rotate r d).centre (mid a b)) (Motion.rotate r d).factor (Motion.rotate r d).angle := by
        funext p
        simp only [similarity, Motion.centre, Motion.factor, ht, rot_lin]
        ext <;> simp
      exact ⟨Q, by show P.rotate r d = _; rw [hr, hQ], hQU, hp, by rw [hu, e], by rw [hl, e]⟩
    rcases r with _ | t <;> rcases d with _ | d
    · exact absurd rfl hv
    · exact key _ rfl (Profile.rotate_deg P d)
    · exact key _ rfl rfl
    · exact absurd rfl hv
  · have hr := referencePoint_closed hU hE
    cases fl
    · refine ⟨P.mulAll f, by simp [Motion.run, Profile.scale, pure, Except.pure], mulAll_uniform' f hU, rfl, ?_, ?_⟩
      · rw [Profile.mulAll_upper]
        congr 1; funext p
        ext <;> simp [similarity, Motion.centre, Motion.factor, Motion.angle, rot] <;> ring
      · rw [Profile.mulAll_lower]
        congr 1; funext p
        ext <;> simp [similarity, Motion.centre, Motion.factor, Motion.angle, rot] <;> ring
    · refine ⟨_, Profile.scale_eq hr, translate_uniform' _ (mulAll_uniform' _ (translate_uniform' _ hU)), rfl, ?_, ?_⟩
      · rw [Profile.scaled_upper]
        congr 1; funext p
        ext <;> simp [similarity, homothety, Motion.centre, Motion.factor, Motion.angle, rot]
      · rw [Profile.scaled_lower]
        congr 1; funext p
        ext <;> simp [similarity, homothety, Motion.centre, Motion.factor, Motion.angle, rot]
  · refine ⟨P.reflect, rfl, by simpa [Profile.Uniform, Profile.reflect] using hU, rfl, ?_, ?_⟩
    · rw [(C04_reflect_points P).1]
      congr 1; funext p
      ext <;> simp [similarity, Motion.centre, Motion.factor, Motion.angle, rot] <;> ring
    · rw [(C04_reflect_points P).2.1]
      congr 1; funext p
      ext <;> simp [similarity, Motion.centre, Motion.factor, Motion.angle, rot] <;> ring

theorem similarity_comp (r r' r'' : Pt) (f g s t : ℝ) (p : Pt) :
    similarity r' r'' g t (similarity r r' f s p) = similarity r r'' (f * g) (s + t) p := by
  ext
  · simp only [similarity, rot, Real.cos_add, Real.sin_add]; ring
  · simp only [similarity, rot, Real.cos_add, Real.sin_add]; ring

theorem mid_similarity (r r' a b : Pt) (f t : ℝ) (hr : r = mid a b) : mid (similarity r r' f t a) (similarity r r' f t b) = r' := by
  subst hr
  ext <;> simp [mid, similarity, rot] <;> ring

theorem runMotions_cons (P : Profile) (m : Motion) (ms : List Motion) :
    P.runMotions (m :: ms) = (m.run P >>= fun Q => Q.runMotions ms) := by
  simp [Profile.runMotions, List.foldlM]

theorem motion_invalid (P : Profile) (m : Motion) (h : ¬ m.Valid) : m.run P = .error .valueError := by
  rcases m with v | ⟨r, d⟩ | ⟨f, fl⟩ | _
  · exact absurd trivial h
  · exact (C03_rotate_args P r d).1 (not_not.1 h)
  · exact absurd trivial h
  · exact absurd trivial h

end Profile

/-- **C143** every sequence of translate, rotate, scale and reflect calls on a closed foil (each rotation given one
angle) succeeds and is one similarity: the product of the scale factors (`-1` for a reflection), the sum of the angles,
and the reference point taken where the calls take it one after the other; the edge midpoint of the result is there. -/
theorem C143_one_similarity (P : Profile) (hU : P.Uniform) (a b : Pt) (hE : P.Ends a b a b) (ms : List Profile.Motion)
    (hv : ∀ m ∈ ms, m.Valid) :
    ∃ Q, P.runMotions ms = .ok Q ∧ Q.Uniform ∧ Q.par = P.par ∧
      P.referencePoint = .ok (mid a b) ∧ Q.referencePoint = .ok (ms.foldl Profile.Motion.centre (mid a b)) ∧
      Q.upper = P.upper.map (similarity (mid a b) (ms.foldl Profile.Motion.centre (mid a b)) (ms.map Profile.Motion.factor).prod
        (ms.map Profile.Motion.angle).sum) ∧
      Q.lower = P.lower.map (similarity (mid a b) (ms.foldl Profile.Motion.centre (mid a b)) (ms.map Profile.Motion.factor).prod
        (ms.map Profile.Motion.angle).sum) := by
  induction ms generalizing P a b with
  | nil =>
    have e : similarity (mid a b) (mid a b) 1 0 = id := by
      funext p; ext <;> simp [similarity, rot]
    refine ⟨P, rfl, hU, rfl, Profile.referencePoint_closed hU hE, Profile.referencePoint_closed hU hE, ?_, ?_⟩ <;> simp [e]
  | cons m ms ih =>
    obtain ⟨Q, hQ, hQU, hpar, hu, hl⟩ := Profile.motion_step hU hE m (hv m (by simp))
    have hQE := hE.map _ hu hl
    obtain ⟨R, hR, hRU, hRp, _, hRr, hRu, hRl⟩ := ih Q hQU _ _ hQE (fun x hx => hv x (by simp [hx]))
    rw [Profile.mid_similarity _ _ _ _ _ _ rfl] at hRr hRu hRl
    refine ⟨R, ?_, hRU, hRp.trans hpar, Profile.referencePoint_closed hU hE, hRr, ?_, ?_⟩
    · rw [Profile.runMotions_cons, hQ]; exact hR
    · rw [hRu, hu, List.map_map]
      congr 1; funext p
      simp only [Function.comp, Profile.similarity_comp, List.foldl_cons, List.map_cons, List.prod_cons, List.sum_cons]
    · rw [hRl, hl, List.map_map]
      congr 1; funext p
      simp only [Function.comp, Profile.similarity_comp, List.foldl_cons, List.map_cons, List.prod_cons, List.sum_cons]

/-- **C143** the calls fail exactly if a rotation is given no angle or two, and then with a ValueError. -/
theorem C143_refused (P : Profile) (hU : P.Uniform) (a b : Pt) (hE : P.Ends a b a b) (ms : List Profile.Motion) :
    ((∃ m ∈ ms, ¬ m.Valid) ↔ P.runMotions ms = .error .valueError) ∧ ((∀ m ∈ ms, m.Valid) ↔ ∃ Q, P.runMotions ms = .ok Q) := by
  have bad : ∀ (ms : List Profile.Motion) (P : Profile), P.Uniform → ∀ a b, P.Ends a b a b → (∃ m ∈ ms, ¬ m.Valid) →
      P.runMotions ms = .error .valueError := by
    intro ms
    induction ms with
    | nil => rintro P _ a b _ ⟨m, hm, _⟩; simp at hm
    | cons m ms ih =>
      rintro P hU a b hE ⟨x, hx, hbad⟩
      rw [Profile.runMotions_cons]
      by_cases hm : m.Valid
      · obtain ⟨Q, hQ, hQU, _, hu, hl⟩ := Profile.motion_step hU hE m hm
        rw [hQ]
        refine ih Q hQU _ _ (hE.map _ hu hl) ⟨x, ?_, hbad⟩
        rcases List.mem_cons.1 hx with rfl | h
        · exact absurd hm hbad
        · exact h
      · rw [Profile.motion_invalid P m hm]; rfl
  have good := fun h => C143_one_similarity P hU a b hE ms h
  refine ⟨⟨bad ms P hU a b hE, fun h => ?_⟩, ⟨fun h => ?_, fun ⟨Q, hQ⟩ => ?_⟩⟩
  · by_contra hc
    push Not at hc
    obtain ⟨Q, hQ, _⟩ := good hc
    rw [h] at hQ; cases hQ
  · obtain ⟨Q, hQ, _⟩ := good h; exact ⟨Q, hQ⟩
  · by_contra hc
    push Not at hc
    rw [bad ms P hU a b hE hc] at hQ; cases hQ

/-- **C143** the order of the calls only affects the position: the same calls in another order (or other calls with the
same product of factors and sum of angles) give the same foil moved by a vector, the difference of the reference
points. -/
theorem C143_order (P : Profile) (hU : P.Uniform) (a b : Pt) (hE : P.Ends a b a b) (ms ms' : List Profile.Motion)
    (hv : ∀ m ∈ ms, m.Valid) (hp : ms.Perm ms') :
    ∃ Q Q' r r', P.runMotions ms = .ok Q ∧ P.runMotions ms' = .ok Q' ∧ Q.referencePoint = .ok r ∧ Q'.referencePoint = .ok r' ∧
      Q'.upper = (Q.translate (r' - r)).upper ∧ Q'.lower = (Q.translate (r' - r)).lower := by
  obtain ⟨Q, hQ, _, _, _, hr, hu, hl⟩ := C143_one_similarity P hU a b hE ms hv
  obtain ⟨Q', hQ', _, _, _, hr', hu', hl'⟩ := C143_one_similarity P hU a b hE ms' (fun m hm => hv m (hp.mem_iff.2 hm))
  refine ⟨Q, Q', _, _, hQ, hQ', hr, hr', ?_, ?_⟩
  · rw [(C01_translate_points Q _).1, hu, hu', List.map_map, (hp.map _).prod_eq, (hp.map _).sum_eq]
    congr 1; funext p
    ext <;> simp [similarity] <;> ring
  · rw [(C01_translate_points Q _).2.1, hl, hl', List.map_map, (hp.map _).prod_eq, (hp.map _).sum_eq]
    congr 1; funext p
    ext <;> simp [similarity] <;> ring

/-- **C143** translations and scalings about the reference point commute: in whatever order they are called, the surfaces
are the same. -/
theorem C143_translate_scale_commute (P : Profile) (hU : P.Uniform) (a b : Pt) (hE : P.Ends a b a b) (ms ms' : List Profile.Motion)
    (hc : ∀ m ∈ ms, m.Centred) (hp : ms.Perm ms') :
    ∃ Q Q', P.runMotions ms = .ok Q ∧ P.runMotions ms' = .ok Q' ∧ Q'.upper = Q.upper ∧ Q'.lower = Q.lower := by
  have val : ∀ m : Profile.Motion, m.Centred → m.Valid := by
    rintro (_ | _ | _ | _) h
    · trivial
    · exact h.elim
    · trivial
    · exact h.elim
  have cen : ms.foldl Profile.Motion.centre (mid a b) = ms'.foldl Profile.Motion.centre (mid a b) := by
    have : ∀ (l l' : List Profile.Motion), l.Perm l' → (∀ m ∈ l, m.Centred) → ∀ r : Pt,
        l.foldl Profile.Motion.centre r = l'.foldl Profile.Motion.centre r := by
      intro l l' h
      induction h with
      | nil => intros; rfl
      | cons x _ ih => intro hm r; exact ih (fun m hm' => hm m (by simp [hm'])) _
      | swap x y l =>
        intro hm r
        simp only [List.foldl_cons]
        congr 1
        have hx := hm x (by simp)
        have hy := hm y (by simp)
        rcases x with v | _ | ⟨f, _ | _⟩ | _ <;> rcases y with w | _ | ⟨g, _ | _⟩ | _ <;>
          simp_all [Profile.Motion.Centred, Profile.Motion.centre]
        constructor <;> ring
      | trans h1 _ ih1 ih2 => intro hm r; exact (ih1 hm r).trans (ih2 (fun m hm' => hm m (h1.mem_iff.2 hm')) r)
    exact this _ _ hp hc _
  obtain ⟨Q, hQ, _, _, _, hr, hu, hl⟩ := C143_one_similarity P hU a b hE ms (fun m hm => val m (hc m hm))
  obtain ⟨Q', hQ', _, _, _, hr', hu', hl'⟩ := C143_one_similarity P hU a b hE ms' (fun m hm => val m (hc m (hp.mem_iff.2 hm)))
  refine ⟨Q, Q', hQ, hQ', ?_, ?_⟩
  · rw [hu, hu', (hp.map _).prod_eq, (hp.map _).sum_eq, cen]
  · rw [hl, hl', (hp.map _).prod_eq, (hp.map _).sum_eq, cen]

/-- **C143** calls can be undone: after any valid sequence whose factors are not zero, another valid sequence of at most three
calls (a rotation, a scaling about the reference point and a translation) brings both surfaces back. -/
theorem C143_undo (P : Profile) (hU : P.Uniform) (a b : Pt) (hE : P.Ends a b a b) (ms : List Profile.Motion)
    (hv : ∀ m ∈ ms, m.Valid) (hf : (ms.map Profile.Motion.factor).prod ≠ 0) :
    ∃ (t f : ℝ) (v : Pt) (Q : Profile), P.runMotions (ms ++ [.rotate (some t) none, .scale f true, .translate v]) = .ok Q ∧
      Q.upper = P.upper ∧ Q.lower = P.lower := by
  set T := (ms.map Profile.Motion.angle).sum with hT
  set F := (ms.map Profile.Motion.factor).prod with hF
  set r' := ms.foldl Profile.Motion.centre (mid a b) with hr'
  set w := rot (-T) r' with hw
  obtain ⟨Q, hQ, _, _, _, _, hu, hl⟩ := C143_one_similarity P hU a b hE
    (ms ++ [.rotate (some (-T)) none, .scale F⁻¹ true, .translate ((mid a b).1 - w.1, (mid a b).2 - w.2)]) (by
      intro m hm
      rcases List.mem_append.1 hm with h | h
      · exact hv m h
      · simp only [List.mem_cons, List.not_mem_nil, or_false] at h
        rcases h with rfl | rfl | rfl <;> simp [Profile.Motion.Valid])
  refine ⟨-T, F⁻¹, _, Q, hQ, ?_, ?_⟩
  · rw [hu]
    simp only [List.map_append, List.prod_append, List.sum_append, List.foldl_append, ← hr', ← hF, ← hT]
    simp only [List.map_cons, List.map_nil, List.prod_cons, List.prod_nil, List.sum_cons, List.sum_nil, List.foldl_cons, List.foldl_nil,
      Profile.Motion.factor, Profile.Motion.angle, Profile.Motion.centre, ← hw]
    have : ∀ p, similarity (mid a b) (w.1 + ((mid a b).1 - w.1), w.2 + ((mid a b).2 - w.2)) (F * (1 * (F⁻¹ * (1 * 1)))) (T + (-T + (0 + (0 + 0)))) p = p := by
      intro p
      have e1 : F * (1 * (F⁻¹ * (1 * 1))) = 1 := by field_simp
      have e2 : T + (-T + (0 + (0 + 0))) = 0 := by ring
      rw [e1, e2]
      ext <;> simp [similarity, rot]
    rw [List.map_congr_left (fun p _ => this p), List.map_id']
  · rw [hl]
    simp only [List.map_append, List.prod_append, List.sum_append, List.foldl_append, ← hr', ← hF, ← hT]
    simp only [List.map_cons, List.map_nil, List.prod_cons, List.prod_nil, List.sum_cons, List.sum_nil, List.foldl_cons, List.foldl_nil,
      Profile.Motion.factor, Profile.Motion.angle, Profile.Motion.centre, ← hw]
    have : ∀ p, similarity (mid a b) (w.1 + ((mid a b).1 - w.1), w.2 + ((mid a b).2 - w.2)) (F * (1 * (F⁻¹ * (1 * 1)))) (T + (-T + (0 + (0 + 0)))) p = p := by
      intro p
      have e1 : F * (1 * (F⁻¹ * (1 * 1))) = 1 := by field_simp
      have e2 : T + (-T + (0 + (0 + 0))) = 0 := by ring
      rw [e1, e2]
      ext <;> simp [similarity, rot]
    rw [List.map_congr_left (fun p _ => this p), List.map_id']

/-- The hypotheses are met: the sample foil, turned, doubled about its midpoint, reflected and moved; factors `-2`. -/
example : ∃ Q Q' r r', Sample.foil.runMotions [.rotate none (some 90), .scale 2 true, .reflect, .translate (1, 2)] = .ok Q ∧
    Sample.foil.runMotions [.translate (1, 2), .reflect, .scale 2 true, .rotate none (some 90)] = .ok Q' ∧
    Q.referencePoint = .ok r ∧ Q'.referencePoint = .ok r' ∧ Q'.upper = (Q.translate (r' - r)).upper ∧ Q'.lower = (Q.translate (r' - r)).lower := by
  refine C143_order Sample.foil (by simp [Sample.foil, Profile.Uniform]) (0, 0) (1, 0)
    (by simp [Sample.foil, Profile.Ends, Profile.upper, Profile.lower]) _ _ ?_ ?_
  · intro m hm
    simp only [List.mem_cons, List.not_mem_nil, or_false] at hm
    rcases hm with rfl | rfl | rfl | rfl <;> simp [Profile.Motion.Valid]
  · exact (List.reverse_perm (α := Profile.Motion) [.rotate none (some 90), .scale 2 true, .reflect, .translate (1, 2)]).symm

/-- Calls that can be undone, calls that commute, and calls that are refused, on the sample foil. -/
example : (∃ (t f : ℝ) (v : Pt) (Q : Profile), Sample.foil.runMotions ([.scale 3 false, .rotate (some 1) none] ++
      [.rotate (some t) none, .scale f true, .translate v]) = .ok Q ∧ Q.upper = Sample.foil.upper ∧ Q.lower = Sample.foil.lower) ∧
    (∃ Q Q', Sample.foil.runMotions [.scale 3 true, .translate (1, 0)] = .ok Q ∧
      Sample.foil.runMotions [.translate (1, 0), .scale 3 true] = .ok Q' ∧ Q'.upper = Q.upper ∧ Q'.lower = Q.lower) ∧
    Sample.foil.runMotions [.scale 3 true, .rotate (some 1) (some 2)] = .error .valueError := by
  have hU : Sample.foil.Uniform := by simp [Sample.foil, Profile.Uniform]
  have hE : Sample.foil.Ends (0, 0) (1, 0) (0, 0) (1, 0) := by simp [Sample.foil, Profile.Ends, Profile.upper, Profile.lower]
  refine ⟨C143_undo _ hU _ _ hE _ ?_ ?_, C143_translate_scale_commute _ hU _ _ hE _ _ ?_
    (List.reverse_perm (α := Profile.Motion) [.scale 3 true, .translate (1, 0)]).symm,
    (C143_refused _ hU _ _ hE _).1.1 ⟨.rotate (some 1) (some 2), by simp, by simp [Profile.Motion.Valid]⟩⟩
  · intro m hm
    simp only [List.mem_cons, List.not_mem_nil, or_false] at hm
    rcases hm with rfl | rfl <;> simp [Profile.Motion.Valid]
  · simp [Profile.Motion.factor]
  · intro m hm
    simp only [List.mem_cons, List.not_mem_nil, or_false] at hm
    rcases hm with rfl | rfl <;> simp [Profile.Motion.Centred]

end BladeX
