import Verif.Spec.Draws

/-!
# Samplers that use the same random numbers

Point samplers, geometry samplers and their copies, frackit/sampling/*.hh and
python/frackit/sampling/__init__.py
-/

namespace Props
open Verif Frackit Frackit.Sharing Spec.Draws

variable {σ τ P β α : Type}

theorem successive_nil (next : σ → α × σ) (s : σ) : Successive next s [] := rfl

theorem successive_cons {next : σ → α × σ} {s : σ} {xs : List α} (h : Successive next (next s).2 xs) :
    Successive next s ((next s).1 :: xs) := by
  unfold Successive at *
  rw [List.length_cons, List.range_succ_eq_map, List.map_cons, List.map_map]
  exact congrArg _ h

theorem successive_get {next : σ → α × σ} {s : σ} {xs : List α} (h : Successive next s xs) {k : ℕ} {a : α}
    (ha : xs[k]? = some a) : a = value next s k := by
  have hk := (List.getElem?_eq_some_iff.1 ha).1
  unfold Successive at h
  rw [h, List.getElem?_map, List.getElem?_range hk] at ha
  exact (Option.some.inj ha).symm

/-- In Python, the cell of a geometry sampler is that of the point sampler it has been made with. -/
structure SharingInv (h : Heap σ τ) (made : List ℕ) : Prop where
  vars : h.vars = List.range h.pointCells.length
  points : h.samplers.map SamplerRef.points = made
  lt : ∀ u ∈ made, u < h.pointCells.length
  own : ∀ r ∈ h.samplers, r.own < h.shapeCells.length

theorem drawnFrom_skip {v : ℕ} {made : List ℕ} {o : Op σ τ} {os : List (Op σ τ)} {rs : List (Result P β)} :
    drawnFrom v made (o :: os) (.noSuchObject :: rs) = drawnFrom v made os rs := by
  cases o <;> simp [drawnFrom]

theorem python_successive (np : σ → P × σ) (ns : τ → β × τ) (v : ℕ) :
    ∀ (ops : List (Op σ τ)) (h : Heap σ τ) (made : List ℕ), SharingInv h made →
      ∀ s, (h.pointCells ++ seeds ops)[v]? = some s →
        Successive np s (drawnFrom v made ops (results .python np ns h ops)) := by
  intro ops
  induction ops with
  | nil => intro h made _ s _; exact successive_nil np s
  | cons o os ih =>
    intro h made I s hs
    cases o with
    | newPoints s0 =>
      simp only [results, step, drawnFrom]
      refine ih _ made ?_ s ?_
      refine ⟨?_, I.points, ?_, I.own⟩
      · simp [newPoints, I.vars, List.range_succ]
      · intro u hu
        have := I.lt u hu
        simp [newPoints]; omega
      · simpa [newPoints, seeds] using hs
    | newSampler q u t =>
      simp only [results, step]
      simp only [seeds] at hs
      by_cases hu : u < h.pointCells.length
      · have h1 : h.vars[u]? = some u := by rw [I.vars]; simp [hu]
        simp only [newSampler, h1, List.getElem?_eq_getElem hu, drawnFrom]
        refine ih _ _ ?_ s hs
        refine ⟨I.vars, ?_, ?_, ?_⟩
        · simp [I.points]
        · intro w hw
          rcases List.mem_append.1 hw with hw | hw
          · exact I.lt w hw
          · simp only [List.mem_singleton] at hw; subst hw; exact hu
        · intro r hr
          rcases List.mem_append.1 hr with hr | hr
          · have := I.own r hr
            simp; omega
          · simp only [List.mem_singleton] at hr; subst hr; simp
      · have h1 : h.vars[u]? = none := by rw [I.vars]; simp; omega
        simp only [newSampler, h1, drawnFrom_skip]
        exact ih h made I s hs
    | copySampler i =>
      simp only [results, step]
      simp only [seeds] at hs
      cases hi : h.samplers[i]? with
      | none =>
        simp only [copySampler, hi, drawnFrom_skip]
        exact ih h made I s hs
      | some r =>
        have hr : r ∈ h.samplers := List.mem_of_getElem? hi
        have hm : made[i]? = some r.points := by rw [← I.points, List.getElem?_map, hi]; rfl
        simp only [copySampler, hi, drawnFrom, hm, Option.toList]
        refine ih _ _ ?_ s hs
        refine ⟨I.vars, ?_, ?_, ?_⟩
        · simp [I.points]
        · intro w hw
          rcases List.mem_append.1 hw with hw | hw
          · exact I.lt w hw
          · simp only [List.mem_singleton] at hw
            subst hw
            exact I.lt _ (List.mem_of_getElem? hm)
        · intro r' hr'
          rcases List.mem_append.1 hr' with hr' | hr'
          · exact I.own r' hr'
          · simp only [List.mem_singleton] at hr'; subst hr'; exact I.own _ hr
    | drawPoint u =>
      simp only [results, step]
      simp only [seeds] at hs
      by_cases hu : u < h.pointCells.length
      · have h1 : h.vars[u]? = some u := by rw [I.vars]; simp [hu]
        have I' : SharingInv { h with pointCells := h.pointCells.set u (np h.pointCells[u]).2 } made :=
          ⟨by simpa using I.vars, I.points, by simpa using I.lt, I.own⟩
        simp only [drawPoint, h1, List.getElem?_eq_getElem hu, drawnFrom]
        by_cases huv : u = v
        · subst huv
          rw [if_pos rfl]
          have : s = h.pointCells[u] := by
            rw [List.getElem?_append_left hu, List.getElem?_eq_getElem hu] at hs
            exact (Option.some.inj hs).symm
          subst this
          apply successive_cons
          refine ih _ made I' _ ?_
          simp [List.getElem?_append_left, hu]
        · rw [if_neg huv]
          refine ih _ made I' _ ?_
          rw [← hs, List.getElem?_append, List.getElem?_append]
          simp [List.getElem?_set_ne huv]
      · have h1 : h.vars[u]? = none := by rw [I.vars]; simp; omega
        simp only [drawPoint, h1, drawnFrom_skip]
        exact ih h made I s hs
    | sample i =>
      simp only [results, step]
      simp only [seeds] at hs
      cases hi : h.samplers[i]? with
      | none =>
        simp only [sample, hi, drawnFrom_skip]
        exact ih h made I s hs
      | some r =>
        have hr : r ∈ h.samplers := List.mem_of_getElem? hi
        have hm : made[i]? = some r.points := by rw [← I.points, List.getElem?_map, hi]; rfl
        have hu : r.points < h.pointCells.length := I.lt _ (List.mem_of_getElem? hm)
        have ho := I.own r hr
        have I' : SharingInv { h with
            shapeCells := h.shapeCells.set r.own (ns h.shapeCells[r.own]).2
            pointCells := h.pointCells.set r.points (np h.pointCells[r.points]).2 } made :=
          ⟨by simpa using I.vars, I.points, by simpa using I.lt, by simpa using I.own⟩
        simp only [sample, hi, List.getElem?_eq_getElem hu, List.getElem?_eq_getElem ho, drawnFrom, hm]
        by_cases huv : r.points = v
        · rw [if_pos (by rw [huv])]
          have : s = h.pointCells[r.points] := by
            rw [← huv, List.getElem?_append_left hu, List.getElem?_eq_getElem hu] at hs
            exact (Option.some.inj hs).symm
          subst this
          apply successive_cons
          refine ih _ made I' _ ?_
          subst huv
          simp [List.getElem?_append_left, hu]
        · rw [if_neg (by simpa using huv)]
          refine ih _ made I' _ ?_
          rw [← hs, List.getElem?_append, List.getElem?_append]
          simp [List.getElem?_set_ne huv]

/-- Full property C122: no random point is used twice.  Whatever is called in which order, the points obtained
from one point sampler, directly or as centers of geometries sampled with it, are the successive values of its
generator. -/
def C122_full (L : Language) : Prop :=
  ∀ (σ τ P β : Type) (np : σ → P × σ) (ns : τ → β × τ) (ops : List (Op σ τ)) (v : ℕ) (s : σ),
    (seeds ops)[v]? = some s →
      Successive np s (drawnFrom v [] ops (results L np ns empty ops))

/-- C122 holds in Python, where samplers refer to the point sampler they are given. -/
theorem C122_python : C122_full .python := by
  intro σ τ P β np ns ops v s hs
  exact python_successive np ns v ops empty [] ⟨rfl, rfl, by simp, by simp [empty]⟩ s (by simpa [empty] using hs)

/-- A generator that counts. -/
def counter (n : ℕ) : ℕ × ℕ := (n, n + 1)

/-- Two samplers made with one point sampler, and one call of each of them. -/
def twoSamplers : List (Op ℕ ℕ) :=
  [.newPoints 5, .newSampler false 0 10, .newSampler false 0 20, .sample 0, .sample 1, .drawPoint 0]

example : drawnFrom 0 [] twoSamplers (results .python counter counter empty twoSamplers) = [5, 6, 7] := rfl

/-- C122 is violated in C++: each sampler owns a copy of the point sampler. -/
theorem C122_disproof : ¬ C122_full .cpp := by
  intro h
  have := h ℕ ℕ ℕ ℕ counter counter twoSamplers 0 5 rfl
  have e : drawnFrom 0 [] twoSamplers (results .cpp counter counter empty twoSamplers) = [5, 5, 5] := rfl
  rw [e] at this
  simp [Successive, List.range_succ, value, counter] at this

/-! ## C++ -/

/-- All references are to existing cells. -/
structure HeapWf (h : Heap σ τ) : Prop where
  vars : ∀ c ∈ h.vars, c < h.pointCells.length
  points : ∀ r ∈ h.samplers, r.points < h.pointCells.length
  own : ∀ r ∈ h.samplers, r.own < h.shapeCells.length

theorem heapWf_step (L : Language) (np : σ → P × σ) (ns : τ → β × τ) {h : Heap σ τ} (W : HeapWf h)
    (o : Op σ τ) : HeapWf (step L np ns h o).2 := by
  have wv := W.vars
  have wp := W.points
  have wo := W.own
  cases o with
  | newPoints s =>
    refine ⟨?_, ?_, wo⟩
    · intro c hc
      rcases List.mem_append.1 hc with hc | hc
      · have := wv c hc
        simp [step, newPoints]; omega
      · simp only [List.mem_singleton] at hc; subst hc; simp [step, newPoints]
    · intro r hr
      have := wp r hr
      simp [step, newPoints]; omega
  | newSampler q u t =>
    simp only [step, newSampler]
    split
    · exact W
    · rename_i c hc
      split
      · exact W
      · rename_i s hs
        have hlt := wv c (List.mem_of_getElem? hc)
        cases L
        · refine ⟨?_, ?_, ?_⟩
          · intro c' hc'
            have := wv c' hc'
            simp; omega
          · intro r hr
            rcases List.mem_append.1 hr with hr | hr
            · have := wp r hr
              simp; omega
            · simp only [List.mem_singleton] at hr; subst hr; simp
          · intro r hr
            rcases List.mem_append.1 hr with hr | hr
            · have := wo r hr
              simp; omega
            · simp only [List.mem_singleton] at hr; subst hr; simp
        · refine ⟨wv, ?_, ?_⟩
          · intro r hr
            rcases List.mem_append.1 hr with hr | hr
            · exact wp r hr
            · simp only [List.mem_singleton] at hr; subst hr; exact hlt
          · intro r hr
            rcases List.mem_append.1 hr with hr | hr
            · have := wo r hr
              simp; omega
            · simp only [List.mem_singleton] at hr; subst hr; simp
  | copySampler i =>
    simp only [step, copySampler]
    split
    · exact W
    · rename_i r hr
      have hm := List.mem_of_getElem? hr
      have same : HeapWf { h with samplers := h.samplers ++ [r] } := by
        refine ⟨wv, ?_, ?_⟩
        · intro r' hr'
          rcases List.mem_append.1 hr' with hr' | hr'
          · exact wp r' hr'
          · simp only [List.mem_singleton] at hr'; subst hr'; exact wp _ hm
        · intro r' hr'
          rcases List.mem_append.1 hr' with hr' | hr'
          · exact wo r' hr'
          · simp only [List.mem_singleton] at hr'; subst hr'; exact wo _ hm
      cases L
      · simp only
        split
        · exact same
        · split
          · exact W
          · refine ⟨wv, ?_, ?_⟩
            · intro r' hr'
              rcases List.mem_append.1 hr' with hr' | hr'
              · exact wp r' hr'
              · simp only [List.mem_singleton] at hr'; subst hr'; exact wp r hm
            · intro r' hr'
              rcases List.mem_append.1 hr' with hr' | hr'
              · have := wo r' hr'
                simp; omega
              · simp only [List.mem_singleton] at hr'; subst hr'; simp
      · exact same
  | drawPoint u =>
    simp only [step, drawPoint]
    split
    · exact W
    · split
      · exact W
      · exact ⟨by simpa using wv, by simpa using wp, wo⟩
  | sample i =>
    simp only [step, sample]
    split
    · exact W
    · split
      · exact ⟨by simpa using wv, by simpa using wp, by simpa using wo⟩
      · exact W

theorem heapWf_after (L : Language) (np : σ → P × σ) (ns : τ → β × τ) (ops : List (Op σ τ)) :
    ∀ {h : Heap σ τ}, HeapWf h → HeapWf (after L np ns h ops) := by
  induction ops with
  | nil => intro h W; exact W
  | cons o os ih => intro h W; exact ih (heapWf_step L np ns W o)

theorem heapWf_empty : HeapWf (empty : Heap σ τ) :=
  ⟨by simp [empty], by simp [empty], by simp [empty]⟩

theorem getElem?_concat_cases {l : List α} {x y : α} {j : ℕ} (h : (l ++ [x])[j]? = some y) :
    l[j]? = some y ∨ (j = l.length ∧ y = x) := by
  by_cases hj : j < l.length
  · rw [List.getElem?_append_left hj] at h
    exact Or.inl h
  · rw [List.getElem?_append_right (by omega)] at h
    obtain ⟨hlt, e⟩ := List.getElem?_eq_some_iff.1 h
    simp at hlt e
    exact Or.inr ⟨by omega, e.symm⟩

theorem getElem?_concat_of {l : List α} {x y : α} {j : ℕ} (h : l[j]? = some y) :
    (l ++ [x])[j]? = some y := by
  rw [List.getElem?_append_left (List.getElem?_eq_some_iff.1 h).1]
  exact h

/-- Sampler `i` is the only object that uses the point cell `c`. -/
structure Alone (h : Heap σ τ) (i c : ℕ) : Prop where
  wf : HeapWf h
  here : ∃ r, h.samplers[i]? = some r ∧ r.points = c
  others : ∀ j r, j ≠ i → h.samplers[j]? = some r → r.points ≠ c
  vars : ∀ u ∈ h.vars, u ≠ c

theorem Alone.lt {h : Heap σ τ} {i c : ℕ} (A : Alone h i c) : c < h.pointCells.length := by
  obtain ⟨r, hr, e⟩ := A.here
  rw [← e]
  exact A.wf.points r (List.mem_of_getElem? hr)

/-- Everything but calls of the sampler leaves its cell as it is, and copies of other samplers do not use
it. -/
theorem alone_step (np : σ → P × σ) (ns : τ → β × τ) {h : Heap σ τ} {i c : ℕ} (A : Alone h i c) (o : Op σ τ)
    (ho : o ≠ .copySampler i) :
    Alone (step .cpp np ns h o).2 i c ∧
      (o ≠ .sample i → (step .cpp np ns h o).2.pointCells[c]? = h.pointCells[c]?) := by
  have hc := A.lt
  have W := heapWf_step .cpp np ns A.wf o
  obtain ⟨r0, hr0, e0⟩ := A.here
  cases o with
  | newPoints s =>
    refine ⟨⟨W, ⟨r0, hr0, e0⟩, A.others, ?_⟩, fun _ => ?_⟩
    · intro u hu
      rcases List.mem_append.1 hu with hu | hu
      · exact A.vars u hu
      · simp only [List.mem_singleton] at hu; omega
    · exact List.getElem?_append_left hc
  | newSampler q u t =>
    revert W
    simp only [step, newSampler]
    split
    · intro _; exact ⟨A, fun _ => rfl⟩
    · split
      · intro _; exact ⟨A, fun _ => rfl⟩
      · intro W
        refine ⟨⟨W, ⟨r0, getElem?_concat_of hr0, e0⟩, ?_, A.vars⟩, fun _ => List.getElem?_append_left hc⟩
        intro j r hj hr
        rcases getElem?_concat_cases hr with hr | ⟨_, rfl⟩
        · exact A.others j r hj hr
        · exact fun e => absurd e (by simp only; omega)
  | copySampler k =>
    have hk : k ≠ i := fun e => ho (by rw [e])
    revert W
    simp only [step, copySampler]
    split
    · intro _; exact ⟨A, fun _ => rfl⟩
    · rename_i r hr
      have hrc := A.others k r hk hr
      split
      · intro W
        refine ⟨⟨W, ⟨r0, getElem?_concat_of hr0, e0⟩, ?_, A.vars⟩, fun _ => rfl⟩
        intro j r' hj hr'
        rcases getElem?_concat_cases hr' with hr' | ⟨_, rfl⟩
        · exact A.others j r' hj hr'
        · exact hrc
      · split
        · intro _; exact ⟨A, fun _ => rfl⟩
        · intro W
          refine ⟨⟨W, ⟨r0, getElem?_concat_of hr0, e0⟩, ?_, A.vars⟩, fun _ => rfl⟩
          intro j r' hj hr'
          rcases getElem?_concat_cases hr' with hr' | ⟨_, rfl⟩
          · exact A.others j r' hj hr'
          · exact hrc
  | drawPoint u =>
    revert W
    simp only [step, drawPoint]
    split
    · intro _; exact ⟨A, fun _ => rfl⟩
    · rename_i c' hc'
      have hne := A.vars c' (List.mem_of_getElem? hc')
      split
      · intro _; exact ⟨A, fun _ => rfl⟩
      · intro W
        exact ⟨⟨W, ⟨r0, hr0, e0⟩, A.others, A.vars⟩, fun _ => List.getElem?_set_ne hne⟩
  | sample k =>
    revert W
    simp only [step, sample]
    split
    · intro _; exact ⟨A, fun _ => rfl⟩
    · rename_i r hr
      split
      · intro W
        refine ⟨⟨W, ⟨r0, hr0, e0⟩, A.others, A.vars⟩, fun hk => ?_⟩
        have hk' : k ≠ i := fun e => hk (by rw [e])
        exact List.getElem?_set_ne (A.others k r hk' hr)
      · intro _; exact ⟨A, fun _ => rfl⟩

theorem sampled_skip {i : ℕ} {o : Op σ τ} {os : List (Op σ τ)} {r : Result P β} {rs : List (Result P β)}
    (h : o ≠ .sample i) : sampled i (o :: os) (r :: rs) = sampled i os rs := by
  cases o <;> cases r <;> simp_all [sampled]

/-- The centers of the geometries of a sampler that is the only one to use its cell. -/
theorem cpp_centers (np : σ → P × σ) (ns : τ → β × τ) {i c : ℕ} :
    ∀ (ops : List (Op σ τ)) (h : Heap σ τ), Alone h i c → (∀ o ∈ ops, o ≠ .copySampler i) →
      ∀ s, h.pointCells[c]? = some s →
        Successive np s ((sampled i ops (results .cpp np ns h ops)).map Prod.snd) := by
  intro ops
  induction ops with
  | nil => intro h _ _ s _; exact successive_nil np s
  | cons o os ih =>
    intro h A hno s hs
    have hno' : ∀ o ∈ os, o ≠ .copySampler i := fun o ho => hno o (List.mem_cons_of_mem _ ho)
    obtain ⟨A', same⟩ := alone_step np ns A o (hno o (List.mem_cons_self ..))
    by_cases ho : o = .sample i
    · subst ho
      obtain ⟨r, hr, e⟩ := A.here
      have hown := A.wf.own r (List.mem_of_getElem? hr)
      have st : step .cpp np ns h (.sample i) = (.geometry (ns h.shapeCells[r.own]).1 (np s).1,
          { h with shapeCells := h.shapeCells.set r.own (ns h.shapeCells[r.own]).2
                   pointCells := h.pointCells.set c (np s).2 }) := by
        simp only [step, sample, hr, List.getElem?_eq_getElem hown, e, hs]
      simp only [results]
      rw [st] at A' ⊢
      simp only [sampled, if_true, List.map_cons]
      apply successive_cons
      refine ih _ A' hno' _ ?_
      simp [A.lt]
    · simp only [results]
      rw [sampled_skip ho]
      exact ih _ A' hno' s (by rw [same ho]; exact hs)

/-- Repeated calls of a point sampler. -/
theorem draws_of_var (np : σ → P × σ) (ns : τ → β × τ) {v c : ℕ} (n : ℕ) :
    ∀ (h : Heap σ τ) (s : σ), h.vars[v]? = some c → h.pointCells[c]? = some s →
      points (results .cpp np ns h (List.replicate n (.drawPoint v))) = (List.range n).map (value np s) := by
  induction n with
  | zero => intro h s _ _; rfl
  | succ n ih =>
    intro h s hv hs
    have st : step .cpp np ns h (.drawPoint v) = (.point (np s).1,
        { h with pointCells := h.pointCells.set c (np s).2 }) := by
      simp only [step, drawPoint, hv, hs]
    rw [List.replicate_succ]
    simp only [results]
    rw [st]
    simp only [points]
    rw [ih { h with pointCells := h.pointCells.set c (np s).2 } (np s).2 hv
      (by simp [(List.getElem?_eq_some_iff.1 hs).1]), List.range_succ_eq_map, List.map_cons,
      List.map_map]
    rfl

/-- A new sampler is the only one to use its copy of the point sampler. -/
theorem newSampler_alone (np : σ → P × σ) (ns : τ → β × τ) {h : Heap σ τ} (W : HeapWf h) {q : Bool} {v : ℕ}
    {t : τ} (hm : (step .cpp np ns h (.newSampler q v t)).1 = .made) :
    ∃ c s, h.vars[v]? = some c ∧ h.pointCells[c]? = some s ∧
      Alone (step .cpp np ns h (.newSampler q v t)).2 h.samplers.length h.pointCells.length ∧
      (step .cpp np ns h (.newSampler q v t)).2.pointCells[h.pointCells.length]? = some s := by
  have W' := heapWf_step .cpp np ns W (.newSampler q v t)
  revert hm W'
  simp only [step, newSampler]
  split
  · simp
  · rename_i c hc
    split
    · simp
    · rename_i s hs
      intro _ W'
      refine ⟨c, s, hc, hs, ⟨W', ⟨⟨q, h.shapeCells.length, h.pointCells.length⟩, by simp, rfl⟩, ?_, ?_⟩,
        by simp⟩
      · intro j r hj hr
        rcases getElem?_concat_cases hr with hr | ⟨e, _⟩
        · have := W.points r (List.mem_of_getElem? hr)
          omega
        · exact absurd e hj
      · intro u hu
        have := W.vars u hu
        omega

/-- C122 (partial), C++: from its construction on, the centers of a sampler are the points that the point
sampler would have returned next, whatever else is called (other samplers, the point sampler itself).  Thus
different samplers do not influence each other.  Missing: that these points are not used a second time by
others. -/
theorem C122_cpp_partial (np : σ → P × σ) (ns : τ → β × τ) (before : List (Op σ τ)) (q : Bool) (v : ℕ) (t : τ)
    (ops : List (Op σ τ)) :
    let h := after .cpp np ns empty before
    let new := h.samplers.length
    let h' := (step .cpp np ns h (.newSampler q v t)).2
    let centers := (sampled new ops (results .cpp np ns h' ops)).map Prod.snd
    (step .cpp np ns h (.newSampler q v t)).1 = .made → (∀ o ∈ ops, o ≠ .copySampler new) →
      centers = points (results .cpp np ns h (List.replicate centers.length (.drawPoint v))) := by
  intro h new h' centers hm hno
  have W : HeapWf h := heapWf_after .cpp np ns before heapWf_empty
  obtain ⟨c, s, hc, hs, A, hs'⟩ := newSampler_alone np ns W hm
  have := cpp_centers np ns ops h' A hno s hs'
  rw [draws_of_var np ns _ h s hc hs]
  exact this

example :
    let h := after .cpp counter counter empty [.newPoints 5, .drawPoint 0]
    let ops : List (Op ℕ ℕ) := [.sample 0, .drawPoint 0, .sample 0]
    (step .cpp counter counter h (.newSampler false 0 10)).1 = .made ∧
      (sampled 0 ops (results .cpp counter counter
        (step .cpp counter counter h (.newSampler false 0 10)).2 ops)) = [(10, 6), (11, 7)] := ⟨rfl, rfl⟩

/-- C122, C++: two samplers made with one point sampler place their geometries at the same centers, one by
one. -/
theorem C122_cpp_same_centers (np : σ → P × σ) (ns : τ → β × τ) (before : List (Op σ τ)) (q q' : Bool) (v : ℕ)
    (t t' : τ) (ops : List (Op σ τ)) :
    let h := after .cpp np ns empty before
    let i := h.samplers.length
    let h' := after .cpp np ns h [.newSampler q v t, .newSampler q' v t']
    let rs := results .cpp np ns h' ops
    (step .cpp np ns h (.newSampler q v t)).1 = .made →
      (∀ o ∈ ops, o ≠ .copySampler i ∧ o ≠ .copySampler (i + 1)) →
      ∀ (k : ℕ) (a b : β × P), (sampled i ops rs)[k]? = some a → (sampled (i + 1) ops rs)[k]? = some b →
        a.2 = b.2 := by
  intro h i h' rs hm hno k a b ha hb
  have W : HeapWf h := heapWf_after .cpp np ns before heapWf_empty
  obtain ⟨c, s, hc, hs, A, hs'⟩ := newSampler_alone np ns W hm
  have st : step .cpp np ns h (.newSampler q v t) = (.made, { h with
      pointCells := h.pointCells ++ [s]
      shapeCells := h.shapeCells ++ [t]
      samplers := h.samplers ++ [⟨q, h.shapeCells.length, h.pointCells.length⟩] }) := by
    simp only [step, newSampler, hc, hs]
  have W1 := A.wf
  have hm1 : (step .cpp np ns (step .cpp np ns h (.newSampler q v t)).2 (.newSampler q' v t')).1 = .made := by
    rw [st]
    simp only [step, newSampler, hc]
    rw [getElem?_concat_of hs]
  obtain ⟨c2, s2, hc2, hs2, A2, hs2'⟩ := newSampler_alone np ns W1 hm1
  have e2 : s2 = s := by
    rw [st] at hc2 hs2
    simp only [hc, Option.some.injEq] at hc2
    subst hc2
    rw [getElem?_concat_of hs] at hs2
    exact (Option.some.inj hs2).symm
  subst e2
  obtain ⟨A1, same⟩ := alone_step np ns A (.newSampler q' v t') (by simp)
  have s1 := cpp_centers np ns ops h' A1 (fun o ho => (hno o ho).1) s2 ((same (by simp)).trans hs')
  have e1 : (step .cpp np ns h (.newSampler q v t)).2.samplers.length = i + 1 := by rw [st]; simp [i]
  rw [e1] at A2
  have s2' := cpp_centers np ns ops h' A2 (fun o ho => (hno o ho).2) s2 hs2'
  have va := successive_get s1 (k := k) (a := a.2) (by rw [List.getElem?_map, ha]; rfl)
  have vb := successive_get s2' (k := k) (a := b.2) (by rw [List.getElem?_map, hb]; rfl)
  rw [va, vb]

example :
    let h' := after .cpp counter counter empty [.newPoints 5, .newSampler false 0 10, .newSampler true 0 20]
    let ops : List (Op ℕ ℕ) := [.sample 0, .sample 0, .sample 1, .drawPoint 0, .sample 1]
    sampled 0 ops (results .cpp counter counter h' ops) = [(10, 5), (11, 6)] ∧
      sampled 1 ops (results .cpp counter counter h' ops) = [(20, 5), (21, 6)] := ⟨rfl, rfl⟩

/-! ## Copies of geometry samplers -/

/-- Sampler `i` is the only one to use the cell `c` for its shapes. -/
structure AloneShape (h : Heap σ τ) (i c : ℕ) : Prop where
  wf : HeapWf h
  here : ∃ r, h.samplers[i]? = some r ∧ r.own = c ∧ r.quadrilateral = false
  others : ∀ j r, j ≠ i → h.samplers[j]? = some r → r.own ≠ c

theorem AloneShape.lt {h : Heap σ τ} {i c : ℕ} (A : AloneShape h i c) : c < h.shapeCells.length := by
  obtain ⟨r, hr, e, _⟩ := A.here
  rw [← e]
  exact A.wf.own r (List.mem_of_getElem? hr)

theorem aloneShape_step (np : σ → P × σ) (ns : τ → β × τ) {h : Heap σ τ} {i c : ℕ} (A : AloneShape h i c)
    (o : Op σ τ) : AloneShape (step .cpp np ns h o).2 i c ∧
      (o ≠ .sample i → (step .cpp np ns h o).2.shapeCells[c]? = h.shapeCells[c]?) := by
  have hc := A.lt
  have W := heapWf_step .cpp np ns A.wf o
  obtain ⟨r0, hr0, e0, q0⟩ := A.here
  cases o with
  | newPoints s => exact ⟨⟨W, ⟨r0, hr0, e0, q0⟩, A.others⟩, fun _ => rfl⟩
  | newSampler q u t =>
    revert W
    simp only [step, newSampler]
    split
    · intro _; exact ⟨A, fun _ => rfl⟩
    · split
      · intro _; exact ⟨A, fun _ => rfl⟩
      · intro W
        refine ⟨⟨W, ⟨r0, getElem?_concat_of hr0, e0, q0⟩, ?_⟩, fun _ => List.getElem?_append_left hc⟩
        intro j r hj hr
        rcases getElem?_concat_cases hr with hr | ⟨_, rfl⟩
        · exact A.others j r hj hr
        · exact fun e => absurd e (by simp only; omega)
  | copySampler k =>
    revert W
    simp only [step, copySampler]
    split
    · intro _; exact ⟨A, fun _ => rfl⟩
    · rename_i r hr
      split
      · rename_i hq
        intro W
        refine ⟨⟨W, ⟨r0, getElem?_concat_of hr0, e0, q0⟩, ?_⟩, fun _ => rfl⟩
        intro j r' hj hr'
        rcases getElem?_concat_cases hr' with hr' | ⟨_, rfl⟩
        · exact A.others j r' hj hr'
        · have hk : k ≠ i := by
            rintro rfl
            rw [hr0] at hr
            cases hr
            rw [q0] at hq
            cases hq
          exact A.others k r' hk hr
      · split
        · intro _; exact ⟨A, fun _ => rfl⟩
        · intro W
          refine ⟨⟨W, ⟨r0, getElem?_concat_of hr0, e0, q0⟩, ?_⟩, fun _ => List.getElem?_append_left hc⟩
          intro j r' hj hr'
          rcases getElem?_concat_cases hr' with hr' | ⟨_, rfl⟩
          · exact A.others j r' hj hr'
          · exact fun e => absurd e (by simp only; omega)
  | drawPoint u =>
    revert W
    simp only [step, drawPoint]
    split
    · intro _; exact ⟨A, fun _ => rfl⟩
    · split
      · intro _; exact ⟨A, fun _ => rfl⟩
      · intro W
        exact ⟨⟨W, ⟨r0, hr0, e0, q0⟩, A.others⟩, fun _ => rfl⟩
  | sample k =>
    revert W
    simp only [step, sample]
    split
    · intro _; exact ⟨A, fun _ => rfl⟩
    · rename_i r hr
      split
      · intro W
        refine ⟨⟨W, ⟨r0, hr0, e0, q0⟩, A.others⟩, fun hk => ?_⟩
        have hk' : k ≠ i := fun e => hk (by rw [e])
        exact List.getElem?_set_ne (A.others k r hk' hr)
      · intro _; exact ⟨A, fun _ => rfl⟩

/-- The shapes of the geometries of a sampler that is the only one to use its cell. -/
theorem cpp_shapes (np : σ → P × σ) (ns : τ → β × τ) {i c : ℕ} :
    ∀ (ops : List (Op σ τ)) (h : Heap σ τ), AloneShape h i c → ∀ t, h.shapeCells[c]? = some t →
      Successive ns t ((sampled i ops (results .cpp np ns h ops)).map Prod.fst) := by
  intro ops
  induction ops with
  | nil => intro h _ t _; exact successive_nil ns t
  | cons o os ih =>
    intro h A t ht
    obtain ⟨A', same⟩ := aloneShape_step np ns A o
    by_cases ho : o = .sample i
    · subst ho
      obtain ⟨r, hr, e, _⟩ := A.here
      have hpt := A.wf.points r (List.mem_of_getElem? hr)
      have st : step .cpp np ns h (.sample i) = (.geometry (ns t).1 (np h.pointCells[r.points]).1,
          { h with shapeCells := h.shapeCells.set c (ns t).2
                   pointCells := h.pointCells.set r.points (np h.pointCells[r.points]).2 }) := by
        simp only [step, sample, hr, List.getElem?_eq_getElem hpt, e, ht]
      simp only [results]
      rw [st] at A' ⊢
      simp only [sampled, if_true, List.map_cons]
      apply successive_cons
      refine ih _ A' _ ?_
      simp [A.lt]
    · simp only [results]
      rw [sampled_skip ho]
      exact ih _ A' t (by rw [same ho]; exact ht)

/-- The list of samplers only grows. -/
theorem samplers_step (L : Language) (np : σ → P × σ) (ns : τ → β × τ) {h : Heap σ τ} (o : Op σ τ) {i : ℕ}
    {r : SamplerRef} (hr : h.samplers[i]? = some r) : (step L np ns h o).2.samplers[i]? = some r := by
  have hc : ∀ x : SamplerRef, (h.samplers ++ [x])[i]? = some r := fun x => getElem?_concat_of hr
  cases o with
  | newPoints s => exact hr
  | newSampler q u t =>
    simp only [step, newSampler]
    split
    · exact hr
    · split
      · exact hr
      · cases L <;> exact hc _
  | copySampler k =>
    simp only [step, copySampler]
    split
    · exact hr
    · cases L
      · simp only
        split
        · exact hc _
        · split
          · exact hr
          · exact hc _
      · exact hc _
  | drawPoint u =>
    simp only [step, drawPoint]
    split
    · exact hr
    · split <;> exact hr
  | sample k =>
    simp only [step, sample]
    split
    · exact hr
    · split <;> exact hr

theorem samplers_after (L : Language) (np : σ → P × σ) (ns : τ → β × τ) {i : ℕ} {r : SamplerRef}
    (ops : List (Op σ τ)) : ∀ {h : Heap σ τ}, h.samplers[i]? = some r →
      (after L np ns h ops).samplers[i]? = some r := by
  induction ops with
  | nil => intro h hr; exact hr
  | cons o os ih => intro h hr; exact ih (samplers_step L np ns o hr)

/-- Samplers that are not for quadrilaterals have a cell of their own. -/
def OwnShapes (h : Heap σ τ) : Prop :=
  ∀ i r, h.samplers[i]? = some r → r.quadrilateral = false → AloneShape h i r.own

theorem aloneShape_new {h : Heap σ τ} (W : HeapWf h) {h' : Heap σ τ} (W' : HeapWf h') {r : SamplerRef}
    (hs : h'.samplers = h.samplers ++ [r]) (ho : r.own = h.shapeCells.length) (hq : r.quadrilateral = false) :
    AloneShape h' h.samplers.length r.own := by
  refine ⟨W', ⟨r, by rw [hs]; simp, rfl, hq⟩, ?_⟩
  intro j r' hj hr'
  rw [hs] at hr'
  rcases getElem?_concat_cases hr' with hr' | ⟨e, _⟩
  · have := W.own r' (List.mem_of_getElem? hr')
    omega
  · exact absurd e hj

theorem ownShapes_step (np : σ → P × σ) (ns : τ → β × τ) {h : Heap σ τ} (W : HeapWf h) (I : OwnShapes h)
    (o : Op σ τ) : OwnShapes (step .cpp np ns h o).2 := by
  have W' := heapWf_step .cpp np ns W o
  intro i r hr hq
  cases hi : h.samplers[i]? with
  | some r0 =>
    have := samplers_step .cpp np ns o hi
    rw [this] at hr
    obtain rfl := Option.some.inj hr
    exact (aloneShape_step np ns (I i _ hi hq) o).1
  | none =>
    revert W' hr
    cases o with
    | newPoints s => intro _ hr; simp [step, newPoints, hi] at hr
    | newSampler q u t =>
      simp only [step, newSampler]
      split
      · intro _ hr; rw [hi] at hr; cases hr
      · split
        · intro _ hr; rw [hi] at hr; cases hr
        · intro W' hr
          rcases getElem?_concat_cases hr with hr | ⟨rfl, rfl⟩
          · rw [hi] at hr; cases hr
          · exact aloneShape_new W W' rfl rfl hq
    | copySampler k =>
      simp only [step, copySampler]
      split
      · intro _ hr; rw [hi] at hr; cases hr
      · rename_i rk hk
        split
        · rename_i hkq
          intro W' hr
          rcases getElem?_concat_cases hr with hr | ⟨_, rfl⟩
          · rw [hi] at hr; cases hr
          · rw [hq] at hkq; cases hkq
        · split
          · intro _ hr; rw [hi] at hr; cases hr
          · intro W' hr
            rcases getElem?_concat_cases hr with hr | ⟨rfl, rfl⟩
            · rw [hi] at hr; cases hr
            · exact aloneShape_new W W' rfl rfl hq
    | drawPoint u =>
      simp only [step, drawPoint]
      split
      · intro _ hr; rw [hi] at hr; cases hr
      · split <;> (intro _ hr; rw [hi] at hr; cases hr)
    | sample k =>
      simp only [step, sample]
      split
      · intro _ hr; rw [hi] at hr; cases hr
      · split <;> (intro _ hr; rw [hi] at hr; cases hr)

theorem ownShapes_after (np : σ → P × σ) (ns : τ → β × τ) (ops : List (Op σ τ)) :
    ∀ {h : Heap σ τ}, HeapWf h → OwnShapes h → OwnShapes (after .cpp np ns h ops) := by
  induction ops with
  | nil => intro h _ I; exact I
  | cons o os ih => intro h W I; exact ih (heapWf_step .cpp np ns W o) (ownShapes_step np ns W I o)

/-- C122, C++: a copy of a sampler for disks or polygons, such as the one that a `MultiGeometrySampler` makes,
returns geometries of the same shape and orientation as the original from then on, one by one. -/
theorem C122_cpp_copy (np : σ → P × σ) (ns : τ → β × τ) (before : List (Op σ τ)) (i : ℕ) (r : SamplerRef)
    (ops : List (Op σ τ)) :
    let h := after .cpp np ns empty before
    let copy := h.samplers.length
    let rs := results .cpp np ns (step .cpp np ns h (.copySampler i)).2 ops
    h.samplers[i]? = some r → r.quadrilateral = false →
      ∀ (k : ℕ) (a b : β × P), (sampled i ops rs)[k]? = some a → (sampled copy ops rs)[k]? = some b →
        a.1 = b.1 := by
  intro h copy rs hr hq k a b ha hb
  have W : HeapWf h := heapWf_after .cpp np ns before heapWf_empty
  have I : OwnShapes h := ownShapes_after np ns before heapWf_empty (by intro i r hr; simp [empty] at hr)
  have hown := W.own r (List.mem_of_getElem? hr)
  have A := I i r hr hq
  have st : step .cpp np ns h (.copySampler i) = (.made, { h with
      shapeCells := h.shapeCells ++ [h.shapeCells[r.own]]
      samplers := h.samplers ++ [⟨false, h.shapeCells.length, r.points⟩] }) := by
    simp only [step, copySampler, hr, hq, List.getElem?_eq_getElem hown]
    rfl
  have W' := heapWf_step .cpp np ns W (.copySampler i)
  obtain ⟨A1, same⟩ := aloneShape_step np ns A (.copySampler i)
  have A2 : AloneShape (step .cpp np ns h (.copySampler i)).2 copy h.shapeCells.length :=
    aloneShape_new (r := ⟨false, h.shapeCells.length, r.points⟩) W W' (by rw [st]) rfl rfl
  have s1 := cpp_shapes np ns ops _ A1 h.shapeCells[r.own]
    (by rw [same (by simp), List.getElem?_eq_getElem hown])
  have s2 := cpp_shapes np ns ops _ A2 h.shapeCells[r.own] (by rw [st]; simp)
  have va := successive_get s1 (k := k) (a := a.1) (by rw [List.getElem?_map, ha]; rfl)
  have vb := successive_get s2 (k := k) (a := b.1) (by rw [List.getElem?_map, hb]; rfl)
  rw [va, vb]

/-- A disk sampler added to a sampler for several geometries under two ids. -/
example :
    let h := after .cpp counter counter empty [.newPoints 5, .newSampler false 0 10, .copySampler 0,
      .copySampler 0]
    let ops : List (Op ℕ ℕ) := [.sample 1, .sample 2, .sample 1, .sample 2]
    sampled 1 ops (results .cpp counter counter h ops) = [(10, 5), (11, 7)] ∧
      sampled 2 ops (results .cpp counter counter h ops) = [(10, 6), (11, 8)] := ⟨rfl, rfl⟩

/-- C122: a copy of a quadrilateral sampler in C++ and any sampler handed over in Python is the original:
calling one has the same result and effect as calling the other. -/
theorem C122_copy_is_original (L : Language) (np : σ → P × σ) (ns : τ → β × τ) (before : List (Op σ τ)) (i : ℕ)
    (r : SamplerRef) (ops : List (Op σ τ)) :
    let h := after L np ns empty before
    let copy := h.samplers.length
    let h' := after L np ns (step L np ns h (.copySampler i)).2 ops
    h.samplers[i]? = some r → L = .python ∨ r.quadrilateral = true →
      step L np ns h' (.sample copy) = step L np ns h' (.sample i) := by
  intro h copy h' hr hL
  have st : (step L np ns h (.copySampler i)).2.samplers = h.samplers ++ [r] := by
    rcases hL with rfl | hq
    · simp only [step, copySampler, hr]
    · cases L <;> simp [step, copySampler, hr, hq]
  have h1 : h'.samplers[i]? = some r :=
    samplers_after L np ns ops (by rw [st]; exact getElem?_concat_of hr)
  have h2 : h'.samplers[copy]? = some r :=
    samplers_after L np ns ops (by rw [st]; simp [copy])
  simp only [step, sample, h1, h2]

example :
    let h := after .cpp counter counter empty [.newPoints 5, .newSampler true 0 10, .copySampler 0,
      .copySampler 0]
    let ops : List (Op ℕ ℕ) := [.sample 1, .sample 2, .sample 1, .sample 2]
    sampled 1 ops (results .cpp counter counter h ops) = [(10, 5), (12, 7)] ∧
      sampled 2 ops (results .cpp counter counter h ops) = [(11, 6), (13, 8)] := ⟨rfl, rfl⟩

end Props
