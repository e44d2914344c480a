import Verif.Spec.CxxRules
import Verif.Lemmas.Rules

/-!
# C73-C76: destructors, members of classes, branch divergence
-/

namespace Oclint
open Spec

/-! ## C73: destructors of base classes -/

theorem safeToDelete_iff (c : CxxClass) :
    hasVirtualOrProtectedDestructor c = true ↔ SafeToDelete c := by
  unfold hasVirtualOrProtectedDestructor SafeToDelete
  cases c.destructor with
  | none => simp
  | some d => simp

theorem publicBase_nil {c : CxxClass} : ¬ PublicBase .nil c := by
  intro h; cases h

theorem plainAncestor_nil {c : CxxClass} : ¬ PlainAncestor .nil c := by
  intro h; cases h with
  | base h => cases h
  | trans h => cases h

theorem plainAncestor_unknown {a rest} {c : CxxClass} :
    PlainAncestor (.unknown a rest) c ↔ PlainAncestor rest c := by
  constructor
  · intro h
    cases h with
    | base h => cases h with | unknown h => exact .base h
    | trans h h1 h2 => cases h with | unknown h => exact .trans h h1 h2
  · intro h
    cases h with
    | base h => exact .base (.unknown h)
    | trans h h1 h2 => exact .trans (.unknown h) h1 h2

theorem plainAncestor_cons {a d rest} {c : CxxClass} : PlainAncestor (.base a d rest) c ↔
    (a = .pub ∧ d.hasDefinition = true ∧
      (c = d ∨ (d.polymorphic = false ∧ PlainAncestor d.bases c))) ∨ PlainAncestor rest c := by
  constructor
  · intro h
    cases h with
    | base h =>
      cases h with
      | here h => exact .inl ⟨rfl, h, .inl rfl⟩
      | there h => exact .inr (.base h)
    | trans h h1 h2 =>
      cases h with
      | here h => exact .inl ⟨rfl, h, .inr ⟨h1, h2⟩⟩
      | there h => exact .inr (.trans h h1 h2)
  · rintro (⟨rfl, h, rfl | ⟨h1, h2⟩⟩ | h)
    · exact .base (.here h)
    · exact .trans (.here h) h1 h2
    · cases h with
      | base h => exact .base (.there h)
      | trans h h1 h2 => exact .trans (.there h) h1 h2

theorem mem_checkBases (child : CxxClass) (bs : CxxBases) (c : CxxClass) (m : Str) :
    (c, m) ∈ checkBases child bs ↔
      PlainAncestor bs c ∧ ¬ SafeToDelete c ∧ m = baseDestructorMessage c child := by
  induction bs using CxxBases.rec (motive_1 := fun d => (c, m) ∈ checkBases child d.bases ↔
      PlainAncestor d.bases c ∧ ¬ SafeToDelete c ∧ m = baseDestructorMessage c child) with
  | mk n d p dtor bases ih => exact ih
  | nil => simp [checkBases, plainAncestor_nil]
  | unknown a rest ih => rw [checkBases, ih, plainAncestor_unknown]
  | base a d rest ihd ih =>
    obtain ⟨n, hd, p, dtor, bases⟩ := d
    rw [checkBases, plainAncestor_cons]
    by_cases ha : a = .pub
    · subst ha
      cases hd with
      | false => simp [ih, CxxClass.hasDefinition]
      | true =>
        simp only [ne_eq, not_true_eq_false, if_false, Bool.not_true, Bool.false_eq_true,
          List.mem_append, ih, CxxClass.hasDefinition, true_and]
        have h1 : (c, m) ∈ (if (!hasVirtualOrProtectedDestructor (.mk n true p dtor bases)) = true then
            [(CxxClass.mk n true p dtor bases, baseDestructorMessage (.mk n true p dtor bases) child)]
            else []) ↔ c = .mk n true p dtor bases ∧ ¬ SafeToDelete c ∧
              m = baseDestructorMessage c child := by
          split
          · next h =>
            rw [List.mem_singleton, Prod.mk.injEq]
            rw [Bool.not_eq_true', ← Bool.not_eq_true, safeToDelete_iff] at h
            constructor
            · rintro ⟨rfl, rfl⟩; exact ⟨rfl, h, rfl⟩
            · rintro ⟨rfl, -, rfl⟩; exact ⟨rfl, rfl⟩
          · next h =>
            rw [Bool.not_eq_true', ← Bool.not_eq_true, safeToDelete_iff, Classical.not_not] at h
            simp only [List.not_mem_nil, false_iff]
            rintro ⟨rfl, h', -⟩
            exact h' h
        have h2 : (c, m) ∈ (if (!p) = true then checkBases child bases else []) ↔
            (p = false ∧ PlainAncestor bases c) ∧ ¬ SafeToDelete c ∧
              m = baseDestructorMessage c child := by
          cases p with
          | false => simpa [CxxClass.bases] using ihd
          | true => simp
        rw [h1, h2]
        simp only [CxxClass.polymorphic, CxxClass.bases]
        constructor
        · rintro (⟨h, h'⟩ | ⟨h, h'⟩ | ⟨h, h'⟩)
          · exact ⟨.inl (.inl h), h'⟩
          · exact ⟨.inl (.inr h), h'⟩
          · exact ⟨.inr h, h'⟩
        · rintro ⟨(h | h) | h, h'⟩
          · exact .inl ⟨h, h'⟩
          · exact .inr (.inl ⟨h, h'⟩)
          · exact .inr (.inr ⟨h, h'⟩)
    · simp [ha, ih]

/-- For a polymorphic class exactly the unsafe ancestors that are reached by public inheritance
through classes that are not polymorphic are reported, with the message naming both. -/
theorem C73_exact (child c : CxxClass) (m : Str) : (c, m) ∈ baseDestructorVisit child ↔
    child.hasDefinition = true ∧ child.polymorphic = true ∧ PlainAncestor child.bases c ∧
      ¬ SafeToDelete c ∧ m = "~".toList ++ c.name ++
        "() should be protected or virtual according to class ".toList ++ child.name := by
  unfold baseDestructorVisit
  split
  · next h =>
    rw [Bool.and_eq_true] at h
    rw [mem_checkBases]
    simp only [h.1, h.2, true_and]
    rfl
  · next h =>
    rw [Bool.and_eq_true] at h
    simp only [List.not_mem_nil, false_iff]
    rintro ⟨h1, h2, -⟩
    exact h ⟨h1, h2⟩

theorem checkBases_count (child : CxxClass) (target : CxxClass → Bool) (bs : CxxBases) :
    ((checkBases child bs).filter fun r => target r.1).length =
      paths (fun c => target c && !hasVirtualOrProtectedDestructor c) bs := by
  induction bs using CxxBases.rec (motive_1 := fun d =>
      ((checkBases child d.bases).filter fun r => target r.1).length =
      paths (fun c => target c && !hasVirtualOrProtectedDestructor c) d.bases) with
  | mk n d p dtor bases ih => exact ih
  | nil => simp [checkBases, paths]
  | unknown a rest ih => rw [checkBases, ih, paths]
  | base a d rest ihd ih =>
    obtain ⟨n, hd, p, dtor, bases⟩ := d
    rw [checkBases, paths]
    by_cases ha : a = .pub
    · subst ha
      cases hd with
      | false => simp [ih, pathsVia]
      | true =>
        simp only [ne_eq, not_true_eq_false, if_false, Bool.not_true, Bool.false_eq_true,
          List.filter_append, List.length_append, ih, pathsVia, if_true, CxxClass.bases] at ihd ⊢
        have h1 : ((if (!hasVirtualOrProtectedDestructor (.mk n true p dtor bases)) = true then
            [(CxxClass.mk n true p dtor bases, baseDestructorMessage (.mk n true p dtor bases) child)]
            else []).filter fun r => target r.1).length =
            if (target (.mk n true p dtor bases) &&
              !hasVirtualOrProtectedDestructor (.mk n true p dtor bases)) = true then 1 else 0 := by
          cases hv : hasVirtualOrProtectedDestructor (CxxClass.mk n true p dtor bases) <;>
            cases ht : target (CxxClass.mk n true p dtor bases) <;> simp [ht]
        rw [h1]
        cases p with
        | false => simp only [Bool.not_false, if_true, ihd, Bool.false_eq_true, if_false]; omega
        | true => simp
    · simp [ha, ih]

/-- An unsafe ancestor is reported as often as there are such paths to it. -/
theorem C73_count (child c : CxxClass) (target : CxxClass → Bool) (ht : ∀ d, target d = true ↔ d = c)
    (hd : child.hasDefinition = true) (hp : child.polymorphic = true) (hu : ¬ SafeToDelete c) :
    ((baseDestructorVisit child).filter fun r => target r.1).length = paths target child.bases := by
  unfold baseDestructorVisit
  rw [hd, hp, Bool.and_self, if_pos rfl, checkBases_count]
  congr 1
  funext d
  by_cases h : target d = true
  · rw [(ht d).1 h]
    rw [← safeToDelete_iff, Bool.not_eq_true] at hu
    simp [hu]
  · simp [Bool.not_eq_true _ ▸ h]

theorem publicAncestor_responsible {bs : CxxBases} {a : CxxClass} (h : PublicAncestor bs a) :
    PlainAncestor bs a ∨ ∃ d, PublicAncestor bs d ∧ d.polymorphic = true ∧ d.hasDefinition = true ∧
      PlainAncestor d.bases a := by
  have hdef : ∀ {bs : CxxBases} {c : CxxClass}, PublicBase bs c → c.hasDefinition = true := by
    intro bs c h
    induction h with
    | here h => exact h
    | unknown _ ih => exact ih
    | there _ ih => exact ih
  induction h with
  | base h => exact .inl (.base h)
  | @trans bs c a h1 h2 ih =>
    rcases ih with ih | ⟨d, h3, h4, h5, h6⟩
    · cases hp : c.polymorphic with
      | false => exact .inl (.trans h1 hp ih)
      | true => exact .inr ⟨c, .base h1, hp, hdef h1, ih⟩
    · exact .inr ⟨d, .trans h1 h3, h4, h5, h6⟩

/-- Stopping at polymorphic classes loses nothing: if the rule reports nothing for a polymorphic class
and for its polymorphic public ancestors, then all its public ancestors are safe. -/
theorem C73_complete (child : CxxClass) (hd : child.hasDefinition = true)
    (hp : child.polymorphic = true) (hc : baseDestructorVisit child = [])
    (ha : ∀ d, PublicAncestor child.bases d → baseDestructorVisit d = []) (a : CxxClass)
    (h : PublicAncestor child.bases a) : SafeToDelete a := by
  refine Classical.byContradiction fun hu => ?_
  rcases publicAncestor_responsible h with h | ⟨d, h1, h2, h3, h4⟩
  · have := (C73_exact child a _).2 ⟨hd, hp, h, hu, rfl⟩
    rw [hc] at this; cases this
  · have := (C73_exact d a _).2 ⟨h3, h2, h4, hu, rfl⟩
    rw [ha d h1] at this; cases this

/-- `struct A {}; struct B : A {}; struct C : B { virtual void f(); };`: both `A` and `B` are
reported for `C`; with private inheritance of `A`, only `B`. -/
example :
    let a : CxxClass := .mk ['A'] true false none .nil
    let b : CxxClass := .mk ['B'] true false none (.base .pub a .nil)
    let b' : CxxClass := .mk ['B'] true false none (.base .priv a .nil)
    (baseDestructorVisit (.mk ['C'] true true none (.base .pub b .nil))).map Prod.snd =
        ["~B() should be protected or virtual according to class C".toList,
          "~A() should be protected or virtual according to class C".toList] ∧
      (baseDestructorVisit (.mk ['C'] true true none (.base .pub b' .nil))).map Prod.snd =
        ["~B() should be protected or virtual according to class C".toList] ∧
      baseDestructorVisit (.mk ['C'] true false none (.base .pub b .nil)) = [] := ⟨rfl, rfl, rfl⟩

/-! ## C74: destructors of polymorphic classes -/

/-- Exactly the defined polymorphic classes without virtual destructor are reported, once. -/
theorem C74_exact (c d : CxxClass) (m : Str) : (d, m) ∈ virtualClassVisit c ↔
    d = c ∧ c.hasDefinition = true ∧ c.polymorphic = true ∧
      (∀ x, c.destructor = some x → x.isVirtual = false) ∧
      m = "class ".toList ++ c.name ++ " should have a virtual destructor ~".toList ++ c.name ++
        "()".toList := by
  unfold virtualClassVisit
  have hv : hasVirtualDestructor c = false ↔ ∀ x, c.destructor = some x → x.isVirtual = false := by
    unfold hasVirtualDestructor
    cases c.destructor with
    | none => simp
    | some x => simp
  split
  · next h =>
    simp only [Bool.and_eq_true, Bool.not_eq_true', hv] at h
    rw [List.mem_singleton, Prod.mk.injEq]
    constructor
    · rintro ⟨rfl, rfl⟩; exact ⟨rfl, h.1.1, h.1.2, h.2, rfl⟩
    · rintro ⟨rfl, -, -, -, rfl⟩; exact ⟨rfl, rfl⟩
  · next h =>
    simp only [Bool.and_eq_true, Bool.not_eq_true', hv] at h
    simp only [List.not_mem_nil, false_iff]
    rintro ⟨-, h1, h2, h3, -⟩
    exact h ⟨⟨h1, h2⟩, h3⟩

/-- At most one report for a class. -/
theorem C74_once (c : CxxClass) : (virtualClassVisit c).length ≤ 1 := by
  unfold virtualClassVisit; split <;> simp

/-- A class that neither rule has anything to say about, nor about its polymorphic public
ancestors: it and all of its public ancestors can be deleted through pointers to them. -/
theorem C74_hierarchy (c : CxxClass) (hd : c.hasDefinition = true) (hp : c.polymorphic = true)
    (h1 : virtualClassVisit c = []) (h2 : baseDestructorVisit c = [])
    (h3 : ∀ d, PublicAncestor c.bases d → baseDestructorVisit d = []) (a : CxxClass)
    (ha : a = c ∨ PublicAncestor c.bases a) : SafeToDelete a := by
  rcases ha with rfl | ha
  · refine Classical.byContradiction fun hu => ?_
    have := (C74_exact a a _).2 ⟨rfl, hd, hp, fun x hx => ?_, rfl⟩
    · rw [h1] at this; cases this
    · cases hv : x.isVirtual with
      | false => rfl
      | true => exact absurd ⟨x, hx, .inl hv⟩ hu
  · exact C73_complete c hd hp h2 h3 a ha

/-- A class with a virtual method and no destructor of its own; and one with a protected
destructor, which this rule does not accept. -/
example : (virtualClassVisit (.mk ['C'] true true none .nil)).map Prod.snd =
      ["class C should have a virtual destructor ~C()".toList] ∧
    (virtualClassVisit (.mk ['C'] true true (some ⟨false, .prot⟩) .nil)).length = 1 ∧
    virtualClassVisit (.mk ['C'] true true (some ⟨true, .pub⟩) .nil) = [] := ⟨rfl, rfl, rfl⟩

/-! ## C75: default arguments of virtual methods, private static members -/

/-- The virtual methods with a default argument, in order, each once. -/
theorem C75_default_arguments (ds : List MemberDecl) :
    List.Sublist (defaultArgumentsRule ds) ds ∧
      (∀ d, d ∈ defaultArgumentsRule ds ↔ d ∈ ds ∧ DefaultOnVirtual d) ∧
      ∀ d, DefaultOnVirtual d → (defaultArgumentsRule ds).count d = ds.count d := by
  have hone : ∀ d, (DefaultOnVirtual d ∧ matchDecl defaultArgumentsMatchers d = [d]) ∨
      (¬ DefaultOnVirtual d ∧ matchDecl defaultArgumentsMatchers d = []) := by
    intro d
    unfold DefaultOnVirtual matchDecl defaultArgumentsMatchers
    cases d with
    | var id a s => simp
    | method id a s v args =>
      by_cases h : v = true ∧ true ∈ args
      · refine .inl ⟨⟨id, a, s, args, by rw [h.1], h.2⟩, ?_⟩
        simp [h.1, h.2]
      · refine .inr ⟨?_, ?_⟩
        · rintro ⟨id', a', s', args', he, ht⟩
          cases he
          exact h ⟨rfl, ht⟩
        · cases v with
          | false => simp
          | true => simp at h; simp [h]
    | other id => simp
  unfold defaultArgumentsRule
  induction ds with
  | nil => exact ⟨.slnil, by simp, by simp⟩
  | cons x ds ih =>
    obtain ⟨ih1, ih2, ih3⟩ := ih
    rw [List.flatMap_cons]
    rcases hone x with ⟨hx, h⟩ | ⟨hx, h⟩
    · rw [h]
      refine ⟨ih1.cons_cons x, fun d => ?_, fun d hd => ?_⟩
      · rw [List.singleton_append, List.mem_cons, List.mem_cons, ih2]
        constructor
        · rintro (rfl | ⟨h1, h2⟩)
          · exact ⟨.inl rfl, hx⟩
          · exact ⟨.inr h1, h2⟩
        · rintro ⟨h1 | h1, h2⟩
          · exact .inl h1
          · exact .inr ⟨h1, h2⟩
      · rw [List.singleton_append, List.count_cons, List.count_cons, ih3 d hd]
    · rw [h, List.nil_append]
      refine ⟨ih1.cons x, fun d => ?_, fun d hd => ?_⟩
      · rw [List.mem_cons, ih2]
        constructor
        · rintro ⟨h1, h2⟩; exact ⟨.inr h1, h2⟩
        · rintro ⟨rfl | h1, h2⟩
          · exact absurd h2 hx
          · exact ⟨h1, h2⟩
      · rw [List.count_cons, ih3 d hd, if_neg, Nat.add_zero]
        intro hxd
        rw [beq_iff_eq] at hxd
        exact hx (hxd ▸ hd)

/-- The private static variables and methods, in order, each once. -/
theorem C75_private_static (ds : List MemberDecl) :
    List.Sublist (privateStaticRule ds) ds ∧
      (∀ d, d ∈ privateStaticRule ds ↔ d ∈ ds ∧ PrivateStatic d) ∧
      ∀ d, PrivateStatic d → (privateStaticRule ds).count d = ds.count d := by
  have hone : ∀ d, (PrivateStatic d ∧ matchDecl privateStaticMatchers d = [d]) ∨
      (¬ PrivateStatic d ∧ matchDecl privateStaticMatchers d = []) := by
    intro d
    unfold PrivateStatic matchDecl privateStaticMatchers
    cases d with
    | var id a s => cases a <;> cases s <;> simp
    | method id a s v args => cases a <;> cases s <;> simp
    | other id => simp
  unfold privateStaticRule
  induction ds with
  | nil => exact ⟨.slnil, by simp, by simp⟩
  | cons x ds ih =>
    obtain ⟨ih1, ih2, ih3⟩ := ih
    rw [List.flatMap_cons]
    rcases hone x with ⟨hx, h⟩ | ⟨hx, h⟩
    · rw [h]
      refine ⟨ih1.cons_cons x, fun d => ?_, fun d hd => ?_⟩
      · rw [List.singleton_append, List.mem_cons, List.mem_cons, ih2]
        constructor
        · rintro (rfl | ⟨h1, h2⟩)
          · exact ⟨.inl rfl, hx⟩
          · exact ⟨.inr h1, h2⟩
        · rintro ⟨h1 | h1, h2⟩
          · exact .inl h1
          · exact .inr ⟨h1, h2⟩
      · rw [List.singleton_append, List.count_cons, List.count_cons, ih3 d hd]
    · rw [h, List.nil_append]
      refine ⟨ih1.cons x, fun d => ?_, fun d hd => ?_⟩
      · rw [List.mem_cons, ih2]
        constructor
        · rintro ⟨h1, h2⟩; exact ⟨.inr h1, h2⟩
        · rintro ⟨rfl | h1, h2⟩
          · exact absurd h2 hx
          · exact ⟨h1, h2⟩
      · rw [List.count_cons, ih3 d hd, if_neg, Nat.add_zero]
        intro hxd
        rw [beq_iff_eq] at hxd
        exact hx (hxd ▸ hd)

/-- `virtual void f(int, int = 1)` and `void g(int = 1)`. -/
example : defaultArgumentsRule [.method 0 .pub false true [false, true],
    .method 1 .pub false false [true], .var 2 .priv true] = [.method 0 .pub false true [false, true]] :=
  rfl
/-- Private static members. -/
example : privateStaticRule [.var 0 .priv true, .var 1 .priv false, .var 2 .prot true,
    .method 3 .priv true false [], .method 4 .pub true false []] =
  [.var 0 .priv true, .method 3 .priv true false []] := rfl

/-! ## C76: branch divergence -/

/-- Which declarations the rule is shown. -/
theorem branchDivergence_events (opts : LangOpts) (tu : List TopDecl) (id : Nat) :
    VisitEvent.traverse id ∈ visitorApply opts defaultSupportedLanguages CUDA_GLOBAL tu ↔
      opts.cuda = true ∧ ∃ d ∈ tu, d.id = id ∧ d.beginValid = true ∧ d.inMainFile = true ∧
        (d.isFunction = true → d.hasCUDAGlobal = true) := by
  unfold visitorApply
  cases opts.cuda with
  | false =>
    have : applyC opts defaultSupportedLanguages CUDA_GLOBAL tu = [] := by
      unfold applyC
      rw [if_pos]
      simp [show maskBool (CUDA_GLOBAL &&& CUDA_HOST) = false by decide]
    simp [this]
  | true =>
    simp only [if_true, true_and, applyCUDA, List.mem_append, List.mem_singleton, reduceCtorEq, or_false]
    have key : ∀ (acc : List VisitEvent), VisitEvent.traverse id ∈
        tu.foldl (fun acc d => acc ++ applyCUDADecl CUDA_GLOBAL d) acc ↔
        VisitEvent.traverse id ∈ acc ∨ ∃ d ∈ tu, VisitEvent.traverse id ∈ applyCUDADecl CUDA_GLOBAL d := by
      induction tu with
      | nil => simp
      | cons x tu ih =>
        intro acc
        rw [List.foldl_cons, ih]
        simp [or_assoc]
    rw [key]
    simp only [List.mem_singleton, reduceCtorEq, false_or]
    refine exists_congr fun d => and_congr_right fun _ => ?_
    unfold applyCUDADecl isValidDecl
    rw [show maskBool (CUDA_GLOBAL &&& CUDA_GLOBAL) = true by decide,
      show maskBool (CUDA_GLOBAL &&& CUDA_HOST) = false by decide]
    cases d.beginValid <;> cases d.inMainFile <;> cases d.isFunction <;> cases d.hasCUDAGlobal <;>
      simp [eq_comm]

/-- Exactly the `if`s with an `else` are reported that are in the main file of a CUDA source, in a
kernel or in a top level declaration that is not a function. -/
theorem C76_exact (opts : LangOpts) (tu : List TopDecl) (body : Nat → Stmt) (r : Stmt) :
    r ∈ branchDivergenceRule opts tu body ↔ opts.cuda = true ∧ TwoWay r ∧
      ∃ d ∈ tu, d.beginValid = true ∧ d.inMainFile = true ∧
        (d.isFunction = true → d.hasCUDAGlobal = true) ∧ Below [body d.id] r := by
  have hv : ∀ s, r ∈ branchDivergenceVisit s ↔ r = s ∧ TwoWay r := by
    intro s
    unfold branchDivergenceVisit TwoWay
    split
    · rw [List.mem_singleton]
      constructor
      · rintro rfl; exact ⟨rfl, _, _, _, _, rfl⟩
      · exact And.left
    · next h =>
      simp only [List.not_mem_nil, false_iff]
      rintro ⟨rfl, p, c, t, e, rfl⟩
      exact h _ _ _ _ rfl
  unfold branchDivergenceRule
  rw [List.mem_flatMap]
  constructor
  · rintro ⟨e, he, hr⟩
    cases e with
    | setUp => cases hr
    | tearDown => cases hr
    | traverse id =>
      obtain ⟨hc, d, hd, rfl, h1, h2, h3⟩ := (branchDivergence_events _ _ _).1 he
      obtain ⟨s, hs, hrs⟩ := (reportOver_iff _ _ _).1 hr
      obtain ⟨rfl, ht⟩ := (hv s).1 hrs
      exact ⟨hc, ht, d, hd, h1, h2, h3, hs⟩
  · rintro ⟨hc, ht, d, hd, h1, h2, h3, hs⟩
    exact ⟨.traverse d.id, (branchDivergence_events _ _ _).2 ⟨hc, d, hd, rfl, h1, h2, h3⟩,
      (reportOver_iff _ _ _).2 ⟨r, hs, (hv r).2 ⟨rfl, ht⟩⟩⟩

/-- In other sources nothing is reported. -/
theorem C76_only_cuda (opts : LangOpts) (tu : List TopDecl) (body : Nat → Stmt)
    (h : opts.cuda = false) : branchDivergenceRule opts tu body = [] := by
  refine List.eq_nil_iff_forall_not_mem.2 fun r hr => ?_
  have := ((C76_exact opts tu body r).1 hr).1
  rw [h] at this; cases this

/-- A kernel, a host function, and a class in a CUDA source: the method of the class is host code,
but its `if` is reported. -/
example :
    let s : Nat → Stmt := fun n => .ifS none (.intLit n) .nullS (some .nullS)
    branchDivergenceRule ⟨false, true, false, true⟩
      [⟨0, true, true, true, true⟩, ⟨1, true, true, true, false⟩, ⟨2, true, true, false, false⟩] s =
      [s 0, s 2] := rfl

end Oclint
