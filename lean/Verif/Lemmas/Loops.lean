import Verif.Lemmas.Semantics

/-! Loops whose bodies differ only in whether they end or `continue`. -/

namespace Oclint.Spec

section
variable {σ V : Type} {W : World σ V}

/-- As the body of a loop, `b` can do what `a` does. -/
def LoopSim (W : World σ V) (a b : Stmt) : Prop :=
  (∀ e, hasEntry W e a = hasEntry W e b) ∧
    ∀ e s o s', Run W e a s o s' → ∃ o', loopOut o' = loopOut o ∧ Run W e b s o' s'

theorem while_sim {b b' : Stmt} (h : LoopSim W b b') {c e s o s'}
    (hr : Run W e (.whileS c b) s o s') : Run W e (.whileS c b') s o s' :=
  while_ind (P := fun e s o s' => Run W e (.whileS c b') s o s')
    (Q := fun o s o' s' => ∀ o2, loopOut o2 = loopOut o → WhileRest W c b' o2 s o' s')
    (fun _ _ _ h1 h2 => .whileFalse h1 h2) (fun _ _ h1 => .whileThrow h1)
    (fun _ _ _ _ _ _ _ h1 h2 h3 h4 => by
      obtain ⟨o2, ho, h3⟩ := h.2 _ _ _ _ h3
      exact .whileTrue h1 h2 h3 (h4 _ ho))
    (fun _ _ _ _ _ _ h1 h2 h3 h4 => by
      obtain ⟨o2, ho, h3⟩ := h.2 _ _ _ _ h3
      exact .whileEnter h1 ((h.1 _).symm.trans h2) h3 (h4 _ ho))
    (fun _ _ _ _ h1 h2 _ ho => .again (ho.trans h1) h2) (fun _ _ _ h1 _ ho => .leave (ho.trans h1)) hr

theorem do_sim {b b' : Stmt} (h : LoopSim W b b') {c e s o s'}
    (hr : Run W e (.doS b c) s o s') : Run W e (.doS b' c) s o s' :=
  do_ind (P := fun e s o s' => Run W e (.doS b' c) s o s')
    (Q := fun o s o' s' => ∀ o2, loopOut o2 = loopOut o → DoRest W b' c o2 s o' s')
    (fun _ _ _ _ _ _ h1 h2 h3 => by
      obtain ⟨o2, ho, h2⟩ := h.2 _ _ _ _ h2
      exact .doBody ((h.1 _).symm.trans h1) h2 (h3 _ ho))
    (fun _ _ _ _ _ _ h1 h2 h3 h4 _ ho => .again (ho.trans h1) h2 h3 h4)
    (fun _ _ _ _ h1 h2 h3 _ ho => .last (ho.trans h1) h2 h3)
    (fun _ _ _ h1 h2 _ ho => .throw (ho.trans h1) h2) (fun _ _ _ h1 _ ho => .leave (ho.trans h1)) hr

theorem for_sim {b b' : Stmt} (h : LoopSim W b b') {i c n e s o s'}
    (hr : Run W e (.forS i c n b) s o s') : Run W e (.forS i c n b') s o s' :=
  for_ind (P := fun i e s o s' => Run W e (.forS i c n b') s o s')
    (Q := fun o s o' s' => ∀ o2, loopOut o2 = loopOut o → ForRest W c n b' o2 s o' s')
    (fun _ _ _ _ _ h1 h2 => .forInit h1 h2) (fun _ _ _ _ h1 h2 => .forInitExit h1 h2)
    (fun _ _ _ _ hc h1 h2 => by subst hc; exact .forFalse h1 h2)
    (fun _ _ _ hc h1 => by subst hc; exact .forThrow h1)
    (fun _ _ _ _ _ _ _ _ hc h1 h2 h3 h4 => by
      obtain ⟨o2, ho, h3⟩ := h.2 _ _ _ _ h3
      subst hc; exact .forTrue h1 h2 h3 (h4 _ ho))
    (fun _ _ _ _ _ hc h1 h2 => by
      obtain ⟨o2, ho, h1⟩ := h.2 _ _ _ _ h1
      subst hc; exact .forEver h1 (h2 _ ho))
    (fun _ _ _ _ _ _ _ h1 h2 h3 h4 => by
      obtain ⟨o2, ho, h3⟩ := h.2 _ _ _ _ h3
      exact .forEnter h1 ((h.1 _).symm.trans h2) h3 (h4 _ ho))
    (fun _ _ _ _ hn h1 h2 _ ho => by subst hn; exact .again (ho.trans h1) h2)
    (fun _ _ _ _ _ _ _ hn h1 h2 h3 _ ho => by subst hn; exact .againInc (ho.trans h1) h2 h3)
    (fun _ _ _ _ hn h1 h2 _ ho => by subst hn; exact .incThrow (ho.trans h1) h2)
    (fun _ _ _ h1 _ ho => .leave (ho.trans h1)) hr

/-- Loops with such bodies do the same. -/
theorem while_loopSame {b b' : Stmt} (h : LoopSim W b b') (h' : LoopSim W b' b) (c : Stmt) :
    Same W (.whileS c b) (.whileS c b') :=
  ⟨fun e => by simp [hasEntry, h.1 e], fun _ _ _ _ => ⟨while_sim h, while_sim h'⟩⟩

theorem do_loopSame {b b' : Stmt} (h : LoopSim W b b') (h' : LoopSim W b' b) (c : Stmt) :
    Same W (.doS b c) (.doS b' c) :=
  ⟨fun e => by simp [hasEntry, h.1 e], fun _ _ _ _ => ⟨do_sim h, do_sim h'⟩⟩

theorem for_loopSame {b b' : Stmt} (h : LoopSim W b b') (h' : LoopSim W b' b) (i c n : Option Stmt) :
    Same W (.forS i c n b) (.forS i c n b') :=
  ⟨fun e => by simp [hasEntry, h.1 e], fun _ _ _ _ => ⟨for_sim h, for_sim h'⟩⟩

/-- `LoopSim` of the ends of blocks. -/
def LoopSimL (W : World σ V) (a b : List Stmt) : Prop :=
  (∀ e, hasEntryL W e a = hasEntryL W e b) ∧
    ∀ e s o s', RunL W e a s o s' → ∃ o', loopOut o' = loopOut o ∧ RunL W e b s o' s'

theorem loopSimL_cons {x : Stmt} {a b : List Stmt} (h : LoopSimL W a b) :
    LoopSimL W (x :: a) (x :: b) := by
  refine ⟨fun e => by simp [hasEntryL, h.1 e], fun e s o s' hr => ?_⟩
  rw [runL_cons] at hr
  split at hr
  · next he =>
    rcases hr with ⟨h1, h2⟩ | ⟨s1, h1, h2⟩
    · exact ⟨o, rfl, .exit he h1 h2⟩
    · obtain ⟨o', ho, h2⟩ := h.2 _ _ _ _ h2
      exact ⟨o', ho, .go he h1 h2⟩
  · next he =>
    obtain ⟨o', ho, h2⟩ := h.2 _ _ _ _ hr
    exact ⟨o', ho, .skip (by simpa using he) h2⟩

theorem loopSimL_append {pre a b : List Stmt} (h : LoopSimL W a b) :
    LoopSimL W (pre ++ a) (pre ++ b) := by
  induction pre with
  | nil => exact h
  | cons x pre ih => exact loopSimL_cons ih

theorem loopSim_compound {a b : List Stmt} (h : LoopSimL W a b) :
    LoopSim W (.compound a) (.compound b) := by
  refine ⟨fun e => by simp [hasEntry, h.1 e], fun e s o s' hr => ?_⟩
  obtain ⟨o', ho, h2⟩ := h.2 _ _ _ _ (run_compound.1 hr)
  exact ⟨o', ho, .compound h2⟩

end
end Oclint.Spec
