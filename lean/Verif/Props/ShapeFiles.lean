import Verif.Spec.ShapeFiles
import Verif.Props.SubShapes

/-!
# C143 Shapes in files
-/

namespace Props
open Verif Frackit Frackit.Appl TopoShape

/-- A shape written to a file that can be opened is read from it afterwards, by `readShape` in C++ and Python; the
other files do not change.  Wrapped solids, faces etc. are accepted after they have been turned into general
shapes only. -/
theorem C143_round_trip (fs : ShapeFiles) (w : Wrapped) (file : List Char) (h : fs.writable file = true) :
    (w.cls = .shape → (pyWrite fs w file).1 = .val () ∧ readShape (pyWrite fs w file).2 file = some w.shape ∧
      ∀ other, other ≠ file → readShape (pyWrite fs w file).2 other = readShape fs other) ∧
    (w.cls ≠ .shape → pyWrite fs w file = (.thrown "TypeError", fs)) ∧
    readShape (pyWrite fs w.toShapeWrapper file).2 file = some w.shape := by
  refine ⟨fun hc => ?_, fun hc => ?_, ?_⟩
  · refine ⟨?_, ?_, fun other ho => ?_⟩
    · simp [pyWrite, hc, h]
    · simp [pyWrite, hc, h, readShape]
    · simp [pyWrite, hc, h, readShape, ho]
  · simp [pyWrite, hc]
  · simp [pyWrite, Wrapped.toShapeWrapper, h, readShape]

example : (⟨fun _ => none, fun _ => true⟩ : ShapeFiles).writable "domain.brep".toList = true := rfl

/-- What can be asked of the shape of a file: the parts of each class; nothing at all, and no error, if there is
nothing to be read. -/
theorem C143_parts (fs : ShapeFiles) (hw : Spec.WellFormedFiles fs) (file : List Char) (k : TopAbs)
    (hk : k ≠ .compound) (t : TopoShape) :
    (t ∈ exploreOrNull k (readShape fs file) ↔ Spec.InFile fs file k t) ∧
    (fs.content file = none → ∀ k, exploreOrNull k (readShape fs file) = []) := by
  refine ⟨?_, fun h k => by simp [readShape, h, exploreOrNull]⟩
  unfold readShape
  cases hs : fs.content file with
  | none => simp [exploreOrNull, Spec.InFile, hs]
  | some s =>
    show t ∈ explore k s ↔ _
    rw [mem_explore_iff k s t (hw file s hs) hk]
    exact ⟨fun h => ⟨s, hs, h⟩, fun ⟨s', hs', h⟩ => by
      obtain rfl := Option.some.inj (hs.symm.trans hs'); exact h⟩

/-- Calls that do not succeed are reported: there is no result for files that cannot be read, and an error if a
shape cannot be written. -/
def C143_full : Prop :=
  (∀ (fs : ShapeFiles) (file : List Char), fs.content file = none → (pySolidsOf fs file).isThrown) ∧
  ∀ (fs : ShapeFiles) (w : Wrapped) (file : List Char), (pyWrite fs w file).1 = .val () →
    readShape (pyWrite fs w file).2 file = some w.shape

/-- Neither is: a missing file is an empty shape, and writing to a file that cannot be opened does nothing. -/
theorem C143_disproof :
    (¬ ∀ (fs : ShapeFiles) (file : List Char), fs.content file = none → (pySolidsOf fs file).isThrown) ∧
    (¬ ∀ (fs : ShapeFiles) (w : Wrapped) (file : List Char), (pyWrite fs w file).1 = .val () →
      readShape (pyWrite fs w file).2 file = some w.shape) ∧ ¬ C143_full := by
  have h1 : ¬ ∀ (fs : ShapeFiles) (file : List Char), fs.content file = none → (pySolidsOf fs file).isThrown := by
    intro H
    exact H ⟨fun _ => none, fun _ => true⟩ [] rfl
  refine ⟨h1, ?_, fun H => h1 H.1⟩
  intro H
  have := H ⟨fun _ => none, fun _ => false⟩ ⟨.shape, mkVertex 0 0⟩ [] rfl
  simp [readShape, pyWrite] at this

/-- What is reported: writing fails with an error exactly for wrappers of special classes, and if it does not fail
the file can be read as written unless it could not be opened; in this case nothing has changed. -/
theorem C143_write_partial (fs : ShapeFiles) (w : Wrapped) (file : List Char) :
    ((pyWrite fs w file).1.isThrown ↔ w.cls ≠ .shape) ∧ (pyWrite fs w file).1 ≠ .ub ∧
    (readShape (pyWrite fs w file).2 file = some w.shape ∨ (pyWrite fs w file).2 = fs) := by
  unfold pyWrite
  by_cases hc : w.cls = .shape
  · by_cases h : fs.writable file = true
    · rw [if_pos hc, if_pos h]
      exact ⟨⟨fun h => h.elim, fun h => absurd hc h⟩, nofun, .inl (by simp [readShape])⟩
    · rw [if_pos hc, if_neg h]
      exact ⟨⟨fun h => h.elim, fun h => absurd hc h⟩, nofun, .inr rfl⟩
  · rw [if_neg hc]
    exact ⟨⟨fun _ => hc, fun _ => trivial⟩, nofun, .inr rfl⟩

/-! ## The domain of example 3 -/

theorem list_three {α : Type*} {l : List α} (h : l.length = 3) : ∃ a b c, l = [a, b, c] := by
  match l, h with
  | [a, b, c], _ => exact ⟨a, b, c, rfl⟩

theorem list_one {α : Type*} {l : List α} (h : l.length = 1) : ∃ a, l = [a] := by
  match l, h with
  | [a], _ => exact ⟨a, rfl⟩

/-- Example 3 goes on exactly if there are three solids in the file and the second one has a single shell; the
domain is this solid, the boundary faces are those of the shell. -/
theorem domain3_val {B : Type} (box : TopoShape → B) (fs : ShapeFiles) (file : List Char) (d : Domain3 B) :
    domain3 box fs file = .val d ↔
      ∃ s a c shell, fs.content file = some s ∧ s.getSolids = [a, d.domain, c] ∧ d.domain.getShells = [shell] ∧
        d.boundary = shell.getFaces ∧ d.box = box d.domain := by
  unfold domain3 readShape
  cases hs : fs.content file with
  | none => simp [exploreOrNull]
  | some s =>
    have e : exploreOrNull .solid (some s) = s.getSolids := rfl
    simp only [e]
    by_cases h3 : s.getSolids.length = 3
    · obtain ⟨a, b, c, habc⟩ := list_three h3
      by_cases h1 : b.getShells.length = 1
      · obtain ⟨t, ht⟩ := list_one h1
        simp only [habc, List.length_cons, List.length_nil, ne_eq, not_true_eq_false, if_false, ht,
          List.getElem?_cons_succ, List.getElem?_cons_zero]
        constructor
        · intro h
          obtain rfl := Outcome.val.inj h
          exact ⟨s, a, c, t, rfl, habc, ht, rfl, rfl⟩
        · rintro ⟨s', a', c', t', hs', habc', ht', hb, hx⟩
          obtain rfl := Option.some.inj hs'
          rw [habc] at habc'
          obtain ⟨db, dbd, dx⟩ := d
          simp only at habc' ht' hb hx
          simp only [List.cons.injEq, and_true] at habc'
          obtain ⟨rfl, rfl, rfl⟩ := habc'
          rw [ht] at ht'
          simp only [List.cons.injEq, and_true] at ht'
          subst ht' hb hx
          rfl
      · simp only [habc, List.length_cons, List.length_nil, ne_eq, not_true_eq_false, if_false, h1,
          List.getElem?_cons_succ, List.getElem?_cons_zero, not_false_eq_true, if_true]
        constructor
        · intro h; cases h
        · rintro ⟨s', a', c', t', hs', habc', ht', _, _⟩
          obtain rfl := Option.some.inj hs'
          rw [habc] at habc'
          simp only [List.cons.injEq, and_true] at habc'
          obtain ⟨rfl, rfl, rfl⟩ := habc'
          rw [ht'] at h1
          exact absurd rfl h1
    · simp only [ne_eq, h3, not_false_eq_true, if_true]
      constructor
      · intro h; cases h
      · rintro ⟨s', a', c', t', hs', habc', _⟩
        obtain rfl := Option.some.inj hs'
        rw [habc'] at h3
        exact absurd rfl h3

theorem domain3_total {B : Type} (box : TopoShape → B) (fs : ShapeFiles) (file : List Char) :
    (∃ d, domain3 box fs file = .val d) ∨
      domain3 box fs file = .thrown "Expected the .brep file to contain 3 solids" ∧
        (exploreOrNull .solid (fs.content file)).length ≠ 3 ∨
      domain3 box fs file = .thrown "Expected a single shell bounding the domain" := by
  unfold domain3 readShape
  by_cases h3 : (exploreOrNull .solid (fs.content file)).length = 3
  · obtain ⟨a, b, c, habc⟩ := list_three h3
    by_cases h1 : b.getShells.length = 1
    · obtain ⟨t, ht⟩ := list_one h1
      simp [habc, ht]
    · simp [habc, h1]
  · right; left
    simp only [ne_eq, h3, not_false_eq_true, if_true, and_self]

/-- Example 3 either stops with a message or works with a solid of the file, the box of this solid and the faces of the
only shell of this solid, which are all of its faces if they belong to shells at all. If there is no file it
stops. -/
theorem C143_example3 {B : Type} (box : TopoShape → B) (fs : ShapeFiles) (hw : Spec.WellFormedFiles fs)
    (file : List Char) :
    (∀ d, domain3 box fs file = .val d →
      Spec.InFile fs file .solid d.domain ∧ d.box = box d.domain ∧
      (∃! shell, Spec.IsPart d.domain shell ∧ shell.kind = .shell) ∧
      (∀ f ∈ d.boundary, Spec.IsPart d.domain f ∧ f.kind = .face) ∧
      (Spec.ClosedByShells d.domain → ∀ f, f ∈ d.boundary ↔ Spec.IsPart d.domain f ∧ f.kind = .face)) ∧
    ((∀ d, domain3 box fs file ≠ .val d) → (domain3 box fs file).isThrown) ∧
    (fs.content file = none →
      domain3 box fs file = .thrown "Expected the .brep file to contain 3 solids") := by
  refine ⟨fun d hd => ?_, fun h => ?_, fun h => ?_⟩
  · obtain ⟨s, a, c, shell, hs, h3, h1, hb, hx⟩ := (domain3_val box fs file d).1 hd
    have hws := hw file s hs
    have hdom : Spec.IsPart s d.domain ∧ d.domain.kind = .solid :=
      (mem_explore_iff .solid s d.domain hws (by decide)).1 (by
        show d.domain ∈ s.getSolids; rw [h3]; simp)
    have trans : ∀ {a b c : TopoShape}, Spec.IsPart a b → Spec.IsPart b c → Spec.IsPart a c := by
      intro a b c hab hbc
      induction hab with
      | refl _ => exact hbc
      | sub a' c' _ hc' _ ih => exact .sub a' c' c hc' (ih hbc)
    have hwd : Spec.WellFormed d.domain := fun t ht => hws t (trans hdom.1 ht)
    have hsh : ∀ t, Spec.IsPart d.domain t ∧ t.kind = .shell ↔ t = shell := by
      intro t
      rw [← mem_explore_iff .shell d.domain t hwd (by decide)]
      show t ∈ d.domain.getShells ↔ _
      rw [h1, List.mem_singleton]
    have hshell := (hsh shell).2 rfl
    have hwsh : Spec.WellFormed shell := fun t ht => hwd t (trans hshell.1 ht)
    have hf : ∀ f, f ∈ d.boundary ↔ Spec.IsPart shell f ∧ f.kind = .face := by
      intro f
      rw [hb]
      exact mem_explore_iff .face shell f hwsh (by decide)
    refine ⟨⟨s, hs, hdom⟩, hx, ⟨shell, hshell, fun t ht => (hsh t).1 ht⟩, fun f hfm => ?_, fun hcl f => ?_⟩
    · obtain ⟨h1, h2⟩ := (hf f).1 hfm
      exact ⟨trans hshell.1 h1, h2⟩
    · rw [hf]
      constructor
      · rintro ⟨h1, h2⟩
        exact ⟨trans hshell.1 h1, h2⟩
      · rintro ⟨h1, h2⟩
        obtain ⟨t, ht, htk, htf⟩ := hcl f h1 h2
        obtain rfl := (hsh t).1 ⟨ht, htk⟩
        exact ⟨htf, h2⟩
  · rcases domain3_total box fs file with ⟨d, hd⟩ | ⟨hd, _⟩ | hd
    · exact absurd hd (h d)
    · rw [hd]; trivial
    · rw [hd]; trivial
  · unfold domain3 readShape
    rw [h]
    rfl

/-- If the file contains a compound of solids, example 3 stops unless there are three of them, and the domain is
the second one. -/
theorem C143_second {B : Type} (box : TopoShape → B) (fs : ShapeFiles) (file : List Char) (s : TopoShape)
    (hs : fs.content file = some s) (hk : s.kind = .compound) (hsub : ∀ c ∈ s.subs, c.kind = .solid) :
    (∀ d, domain3 box fs file = .val d → ∃ a b c, s.subs = [a, b, c] ∧ d.domain = Spec.seen s b) ∧
    (s.subs.length ≠ 3 → domain3 box fs file = .thrown "Expected the .brep file to contain 3 solids") := by
  obtain ⟨i, k, p, cs, l, f⟩ := s
  simp only [kind] at hk
  subst hk
  have hl : ∀ cs : List TopoShape, (∀ c ∈ cs, c.kind = .solid) →
      exploreList .solid l f cs = cs.map (Spec.seen (.mk i .compound p cs l f)) := by
    intro cs hcs
    have : ∀ cs' : List TopoShape, (∀ c ∈ cs', c.kind = .solid) →
        exploreList .solid l f cs' = cs'.map (Spec.seen (.mk i .compound p cs l f)) := by
      intro cs' h'
      induction cs' with
      | nil => rfl
      | cons c cs' ih =>
        rw [exploreList, ih fun x hx => h' x (List.mem_cons_of_mem _ hx), exploreIn_within, List.map_cons, seen_eq]
        have hc := h' c (List.mem_cons_self ..)
        obtain ⟨i', k', p', cs', l', f'⟩ := c
        simp only [kind] at hc
        subst hc
        simp [explore, exploreIn, within, loc, forward]
    exact this cs hcs
  have e : getSolids (.mk i .compound p cs l f) = cs.map (Spec.seen (.mk i .compound p cs l f)) := by
    rw [← hl cs hsub]
    simp [getSolids, explore, exploreIn, TopAbs.rank]
  refine ⟨fun d hd => ?_, fun h => ?_⟩
  · obtain ⟨s', a, c, shell, hs', h3, _⟩ := (domain3_val box fs file d).1 hd
    obtain rfl := Option.some.inj (hs.symm.trans hs')
    rw [e] at h3
    have hlen := congrArg List.length h3
    simp only [List.length_map, List.length_cons, List.length_nil] at hlen
    obtain ⟨x, y, z, rfl⟩ := list_three hlen
    simp only [List.map_cons, List.map_nil, List.cons.injEq, and_true] at h3
    exact ⟨x, y, z, rfl, h3.2.1.symm⟩
  · rcases domain3_total box fs file with ⟨d, hd⟩ | ⟨hd, _⟩ | hd
    · obtain ⟨s', a, c, shell, hs', h3, _⟩ := (domain3_val box fs file d).1 hd
      obtain rfl := Option.some.inj (hs.symm.trans hs')
      rw [e] at h3
      have hlen := congrArg List.length h3
      simp only [List.length_map, List.length_cons, List.length_nil] at hlen
      exact absurd hlen h
    · exact hd
    · exfalso
      unfold domain3 readShape at hd
      rw [hs] at hd
      have e' : exploreOrNull .solid (some (.mk i .compound p cs l f)) = _ := e
      simp only [e', List.length_map] at hd
      have h' : cs.length ≠ 3 := h
      rw [if_pos h'] at hd
      simp at hd

/-- The script does the same as the program, but it stops unless there are six boundary faces. -/
theorem C143_example3_python {B : Type} (box : TopoShape → B) (fs : ShapeFiles) (file : List Char) :
    (∀ d, domain3Py box fs file = .val d ↔ domain3 box fs file = .val d ∧ d.boundary.length = 6) ∧
    ((∀ d, domain3Py box fs file ≠ .val d) → (domain3Py box fs file).isThrown) ∧
    (∀ m, domain3 box fs file = .thrown m → domain3Py box fs file = .thrown m) := by
  have key : (∀ d, domain3 box fs file = .val d →
      domain3Py box fs file = if d.boundary.length = 6 then .val d
        else .thrown "Expected 6 faces to bound the domain") ∧
      (∀ m, domain3 box fs file = .thrown m → domain3Py box fs file = .thrown m) := by
    unfold domain3 domain3Py pySolidsOf readShape
    cases hs : fs.content file with
    | none =>
      refine ⟨fun d h => ?_, fun m h => ?_⟩
      · simp [exploreOrNull] at h
      · simpa [exploreOrNull, Outcome.val_bind] using h
    | some s =>
      have e : exploreOrNull .solid (some s) = s.getSolids := rfl
      have e2 : (Wrapped.mk .shape s).get .solid = .val (s.getSolids.map (Wrapped.mk .solid)) := rfl
      simp only [e, e2, Outcome.val_bind, List.length_map]
      by_cases h3 : s.getSolids.length = 3
      · obtain ⟨a, b, c, habc⟩ := list_three h3
        have e3 : (Wrapped.mk .solid b).get .shell = .val (b.getShells.map (Wrapped.mk .shell)) := rfl
        simp only [habc, List.length_cons, List.length_nil, ne_eq, not_true_eq_false, if_false, List.map_cons,
          List.map_nil, List.getElem?_cons_succ, List.getElem?_cons_zero, e3, Outcome.val_bind, List.length_map]
        by_cases h1 : b.getShells.length = 1
        · obtain ⟨t, ht⟩ := list_one h1
          have e4 : (Wrapped.mk .shell t).get .face = .val (t.getFaces.map (Wrapped.mk .face)) := rfl
          simp only [ht, List.length_cons, List.length_nil, ne_eq, not_true_eq_false, if_false, List.map_cons,
            List.map_nil, List.getElem?_cons_zero, e4, Outcome.val_bind, List.length_map]
          refine ⟨fun d h => ?_, fun m h => by simp at h⟩
          obtain rfl := Outcome.val.inj h
          have e5 : (t.getFaces.map (Wrapped.mk .face)).map Wrapped.shape = t.getFaces := by
            rw [List.map_map]
            exact List.map_id _
          by_cases h6 : t.getFaces.length = 6
          · simp [h6, pyShapeBox, Wrapped.toShapeWrapper, Outcome.val_bind, e5]
          · simp [h6]
        · refine ⟨fun d h => ?_, fun m h => ?_⟩
          · simp [h1] at h
          · simpa [h1] using h
      · refine ⟨fun d h => ?_, fun m h => ?_⟩
        · simp [h3] at h
        · simpa [h3] using h
  have tot := domain3_total box fs file
  refine ⟨fun d => ?_, fun h => ?_, key.2⟩
  · constructor
    · intro h
      rcases tot with ⟨d', hd'⟩ | ⟨hd', _⟩ | hd'
      · have := key.1 d' hd'
        rw [h] at this
        by_cases h6 : d'.boundary.length = 6
        · rw [if_pos h6] at this
          obtain rfl := Outcome.val.inj this
          exact ⟨hd', h6⟩
        · rw [if_neg h6] at this; cases this
      · rw [key.2 _ hd'] at h; cases h
      · rw [key.2 _ hd'] at h; cases h
    · rintro ⟨h, h6⟩
      rw [key.1 d h, if_pos h6]
  · rcases tot with ⟨d', hd'⟩ | ⟨hd', _⟩ | hd'
    · have := key.1 d' hd'
      by_cases h6 : d'.boundary.length = 6
      · rw [if_pos h6] at this; exact absurd this (h d')
      · rw [if_neg h6] at this; rw [this]; trivial
    · rw [key.2 _ hd']; trivial
    · rw [key.2 _ hd']; trivial

/-! ## A file with three solids -/

/-- A solid with a shell of `n` faces (the wires of the faces are left out). -/
def layer (i n : ℕ) : TopoShape :=
  .mk i .solid 0 [.mk (i + 1) .shell 0 ((List.range n).map fun j => .mk (i + 2 + j) .face 0 [] 0 true) 0 true] 0 true

def layersName : List Char := "layers.brep".toList

def layersFile (n : ℕ) : ShapeFiles :=
  ⟨fun f => if f = layersName then some (.mk 0 .compound 0 [layer 1 6, layer 11 n, layer 31 6] 0 true) else none,
    fun _ => true⟩

theorem layers_content (n : ℕ) (f : List Char) : (layersFile n).content f
    = if f = layersName then some (.mk 0 .compound 0 [layer 1 6, layer 11 n, layer 31 6] 0 true) else none := rfl

theorem layer_wellFormed (i n : ℕ) : Spec.WellFormed (layer i n) := by
  refine wellFormed_mk ?_ ?_
  · intro c hc
    rw [List.mem_singleton] at hc
    subst hc
    exact .inl (by simp [kind, TopAbs.rank])
  · intro c hc
    rw [List.mem_singleton] at hc
    subst hc
    refine wellFormed_mk ?_ ?_
    · intro c hc
      obtain ⟨j, _, rfl⟩ := List.mem_map.1 hc
      exact .inl (by simp [kind, TopAbs.rank])
    · intro c hc
      obtain ⟨j, _, rfl⟩ := List.mem_map.1 hc
      exact wellFormed_mk (by simp) (by simp)

theorem layers_domain (n : ℕ) :
    ∃ d, domain3 (fun s => s.object) (layersFile n) layersName = .val d ∧ d.box = 11 ∧
      d.boundary.map object = (List.range n).map (13 + ·) := by
  refine ⟨⟨layer 11 n, (TopoShape.mk 12 .shell 0
    ((List.range n).map fun j => .mk (11 + 2 + j) .face 0 [] 0 true) 0 true).getFaces, 11⟩,
    (domain3_val _ _ _ _).2 ⟨_, layer 1 6, layer 31 6, _,
      (layers_content n _).trans (if_pos rfl), ?_, ?_, rfl, rfl⟩, rfl, ?_⟩
  · simp [getSolids, explore, exploreIn, exploreList, layer, TopAbs.rank]
  · simp [getShells, explore, exploreIn, exploreList, layer, TopAbs.rank]
  · have h : ∀ l : List ℕ, (exploreList .face 0 true (l.map fun j => .mk (11 + 2 + j) .face 0 [] 0 true)).map object
        = l.map (13 + ·) := by
      intro l
      induction l with
      | nil => rfl
      | cons a l ih => simp [exploreList, exploreIn, object, ih]
    have e : (TopoShape.mk 12 .shell 0 ((List.range n).map fun j => .mk (11 + 2 + j) .face 0 [] 0 true) 0 true).getFaces
        = exploreList .face 0 true ((List.range n).map fun j => .mk (11 + 2 + j) .face 0 [] 0 true) := by
      simp [getFaces, explore, exploreIn, TopAbs.rank]
    show ((TopoShape.mk 12 .shell 0
      ((List.range n).map fun j => .mk (11 + 2 + j) .face 0 [] 0 true) 0 true).getFaces).map object = _
    rw [e, h]

/-- The program and the script with six boundary faces, and with five: the script stops, the program does not. -/
example : (∃ d, domain3 (fun s => s.object) (layersFile 6) layersName = .val d ∧
      domain3Py (fun s => s.object) (layersFile 6) layersName = .val d) ∧
    (∃ d, domain3 (fun s => s.object) (layersFile 5) layersName = .val d) ∧
    (domain3Py (fun s => s.object) (layersFile 5) layersName).isThrown := by
  obtain ⟨d, h1, _, h2⟩ := layers_domain 6
  obtain ⟨d', h1', _, h2'⟩ := layers_domain 5
  have l : d.boundary.length = 6 := by
    have := congrArg List.length h2
    simpa using this
  have l' : d'.boundary.length = 5 := by
    have := congrArg List.length h2'
    simpa using this
  refine ⟨⟨d, h1, ((C143_example3_python _ _ _).1 d).2 ⟨h1, l⟩⟩, ⟨d', h1'⟩,
    (C143_example3_python _ _ _).2.1 fun x hx => ?_⟩
  obtain ⟨h3, h4⟩ := ((C143_example3_python _ _ _).1 x).1 hx
  obtain rfl := Outcome.val.inj (h1'.symm.trans h3)
  omega

/-- The domain is the second layer. -/
example : ∃ d, domain3 (fun s => s.object) (layersFile 6) layersName = .val d ∧ d.domain.object = 11 := by
  obtain ⟨d, h1, _, _⟩ := layers_domain 6
  obtain ⟨a, b, c, h2, h3⟩ := (C143_second (fun s => s.object) (layersFile 6) layersName _
    ((layers_content 6 _).trans (if_pos rfl)) rfl (by
      intro c hc
      simp only [subs, List.mem_cons, List.not_mem_nil, or_false] at hc
      rcases hc with rfl | rfl | rfl <;> rfl)).1 d h1
  refine ⟨d, h1, ?_⟩
  simp only [subs, List.cons.injEq, and_true] at h2
  obtain ⟨_, rfl, _⟩ := h2
  rw [h3]
  rfl

/-- The files are well-formed. -/
example : Spec.WellFormedFiles (layersFile 6) ∧ (layersFile 6).content [] = none := by
  refine ⟨?_, (layers_content 6 []).trans (if_neg (by decide))⟩
  intro file s hs
  rw [layers_content] at hs
  by_cases hf : file = layersName
  · rw [if_pos hf] at hs
    obtain rfl := Option.some.inj hs
    refine wellFormed_mk ?_ ?_
    · intro c hc
      simp only [List.mem_cons, List.not_mem_nil, or_false] at hc
      rcases hc with rfl | rfl | rfl <;> exact .inl (by simp [layer, kind, TopAbs.rank])
    · intro c hc
      simp only [List.mem_cons, List.not_mem_nil, or_false] at hc
      rcases hc with rfl | rfl | rfl <;> exact wellFormed_within (layer_wellFormed _ _) _ _
  · rw [if_neg hf] at hs
    cases hs

/-- In Python the bounding box of a shape can be asked for general shapes only; other wrapped shapes are turned into general
shapes before, which does not change the box. -/
theorem C143_box {B : Type} (box : TopoShape → B) (w : Wrapped) :
    (w.cls ≠ .shape → pyShapeBox box w = .thrown "TypeError") ∧ pyShapeBox box w.toShapeWrapper = .val (box w.shape) := by
  refine ⟨fun h => ?_, ?_⟩
  · rw [pyShapeBox, if_neg h]
  · simp [pyShapeBox, Wrapped.toShapeWrapper]

end Props
