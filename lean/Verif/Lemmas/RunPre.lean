import Verif.Spec.Trace
/-!
# Every state that occurs inside a history is a state of a history
-/
namespace Verif
open Verif

theorem Run.append {env : Env} {L : Pubkey → Prop} {top : Bool} {w w1 w2 : World} {tr tr' : List Ev} (h : Run env L top w tr w1)
    (h' : Run env L top w1 tr' w2) : Run env L top w (tr ++ tr') w2 := by
  induction h' with
  | nil => simpa using h
  | rl ctx i _ hp hs hr ih => rw [← List.append_assoc]; exact .rl ctx i (ih h) hp hs hr
  | tp ctx i _ hp hs hr ih => rw [← List.append_assoc]; exact .tp ctx i (ih h) hp hs hr
  | payload ctx i p _ hin hp hs hpl hno hr ih _ =>
    rw [← List.append_assoc, ← List.append_assoc]; exact .payload ctx i p (ih h) hin hp hs hpl hno hr
  | ext _ he ih => rw [← List.append_assoc]; exact .ext (ih h) he
  | purge _ hp ih => rw [← List.append_assoc]; exact .purge (ih h) hp

theorem Run.toTop {env : Env} {L : Pubkey → Prop} {top : Bool} {w w1 : World} {tr : List Ev} (h : Run env L top w tr w1) :
    Run env L true w tr w1 := by
  induction h with
  | nil => exact .nil _ _
  | rl ctx i _ hp hs hr ih => exact .rl ctx i ih hp hs hr
  | tp ctx i _ hp hs hr ih => exact .tp ctx i ih hp hs hr
  | payload ctx i p _ hin hp hs hpl hno hr ih _ => exact .payload ctx i p ih hin hp hs hpl hno hr
  | ext _ he ih => exact .ext ih he
  | purge _ hp ih => exact .purge ih hp

/-- The state before each step is reached by a history, the steps before it. -/
theorem Run.pre {env : Env} {L : Pubkey → Prop} {top : Bool} {w w' : World} {tr : List Ev} (h : Run env L top w tr w') :
    ∀ e ∈ tr, ∃ t1 t2, tr = t1 ++ e :: t2 ∧ Run env L true w t1 e.pre := by
  have one : ∀ {t1 : List Ev} {x : Ev} {e : Ev}, e ∈ t1 ++ [x] → e ∈ t1 ∨ e = x := by
    intro t1 x e h
    rcases List.mem_append.1 h with h | h
    · exact .inl h
    · exact .inr (List.mem_singleton.1 h)
  have ext : ∀ {tr : List Ev} {e : Ev} (y : List Ev), (∃ t1 t2, tr = t1 ++ e :: t2 ∧ Run env L true w t1 e.pre) →
      ∃ t1 t2, tr ++ y = t1 ++ e :: t2 ∧ Run env L true w t1 e.pre := by
    rintro tr e y ⟨t1, t2, rfl, h⟩
    exact ⟨t1, t2 ++ y, by simp, h⟩
  induction h with
  | nil => intro e he; cases he
  | rl ctx i h hp hs hr ih =>
    intro e he
    rcases one he with he | rfl
    · exact ext _ (ih ext e he)
    · exact ⟨_, [], rfl, h.toTop⟩
  | tp ctx i h hp hs hr ih =>
    intro e he
    rcases one he with he | rfl
    · exact ext _ (ih ext e he)
    · exact ⟨_, [], rfl, h.toTop⟩
  | @payload top w w1 c w2 tr tr' ctx i p h hin hp hs hpl hno hr ih ih' =>
    intro e he
    rcases one he with he | rfl
    · rcases List.mem_append.1 he with he | he
      · exact ext _ (ext _ (ih ext e he))
      · refine ext _ ?_
        obtain ⟨t1, t2, rfl, h2⟩ := ih' (by
          rintro tr e y ⟨t1, t2, rfl, h⟩
          exact ⟨t1, t2 ++ y, by simp, h⟩) e he
        exact ⟨tr ++ t1, t2, by simp, h.toTop.append h2⟩
    · exact ⟨_, [], rfl, h.toTop.append hin.toTop⟩
  | ext h he ih =>
    intro e he
    rcases one he with he | rfl
    · exact ext _ (ih ext e he)
    · exact ⟨_, [], rfl, h.toTop⟩
  | purge h hp ih =>
    intro e he
    rcases one he with he | rfl
    · exact ext _ (ih ext e he)
    · exact ⟨_, [], rfl, h.toTop⟩

theorem Reach.run {env : Env} {L : Pubkey → Prop} {w w' : World} {tr : List Ev} (h : Reach env L w) (hr : Run env L true w tr w') :
    Reach env L w' := by
  obtain ⟨w0, t, hg, h⟩ := h
  exact ⟨w0, _, hg, h.append hr⟩

theorem Reach.pre {env : Env} {L : Pubkey → Prop} {w w' : World} {tr : List Ev} (h : Reach env L w) (hr : Run env L true w tr w')
    (e : Ev) (he : e ∈ tr) : Reach env L e.pre := by
  obtain ⟨t1, t2, -, h2⟩ := hr.pre e he
  exact h.run h2

end Verif
