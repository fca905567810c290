import Verif.Model.OpenApiShared
import Verif.Lemmas.OpenApiSafe
namespace Sadl.Shared

variable {α : Type}

theorem step_other (s : State α) {i j : Nat} (h : j ≠ i) (b : Bool) : (s.step j b).calls i = s.calls i := by
  have hs : ∀ (s : State α) p, (s.set j p).calls i = s.calls i := fun s p => by simp [State.set, Ne.symm h]
  unfold State.step
  split
  · exact hs s _
  · split_ifs
    · exact hs s _
    · split
      · exact hs s _
      · exact hs s _
  · exact hs s _
  · rfl
  · rfl

theorem run_other (i : Nat) (sched : List (Nat × Bool)) (h : ∀ x ∈ sched, x.1 ≠ i) (s : State α) : (s.run sched).calls i = s.calls i := by
  induction sched generalizing s with
  | nil => rfl
  | cons x l ih =>
    have := ih (fun y hy => h y (List.mem_cons_of_mem _ hy)) (s.step x.1 x.2)
    rw [show s.run (x :: l) = (s.step x.1 x.2).run l from rfl, this]
    exact step_other s (h x List.mem_cons_self) _

/-- What holds of a call that is alone: the variable has what it has appended. -/
def Inv (own : List α) (s : State α) (i : Nat) : Prop :=
  match s.calls i with
  | .start todo => todo = own
  | .running todo => s.examples ++ todo = own
  | .appending x todo read => read ++ x :: todo = own
  | .done r => r = own
  | .failed => True

theorem step_inv (own : List α) (s : State α) (i : Nat) (b : Bool) (h : Inv own s i) : Inv own (s.step i b) i := by
  have hs : ∀ (s : State α) p, (s.set i p).calls i = p := fun s p => by simp [State.set]
  unfold Inv State.step
  unfold Inv at h
  cases hc : s.calls i with
  | start todo => rw [hc] at h; simp only at h; simp [State.set, h]
  | running todo =>
    rw [hc] at h
    simp only at h
    cases b with
    | true => simp [State.set]
    | false =>
      cases todo with
      | nil => simp only [List.append_nil] at h; simp [State.set, h]
      | cons x todo => simp [State.set, h]
  | appending x todo read => rw [hc] at h; simp only at h; simp [State.set, h]
  | done r => rw [hc] at h; simp only at h; simp [hc, h]
  | failed => simp [hc]

theorem run_inv (own : List α) (i : Nat) (sched : List (Nat × Bool)) (h : ∀ x ∈ sched, x.1 = i) (s : State α) (hi : Inv own s i) :
    Inv own (s.run sched) i := by
  induction sched generalizing s with
  | nil => exact hi
  | cons x l ih =>
    refine ih (fun y hy => h y (List.mem_cons_of_mem _ hy)) (s.step x.1 x.2) ?_
    rw [h x List.mem_cons_self]
    exact step_inv own s i x.2 hi

theorem step_done (s : State α) (i j : Nat) (b : Bool) (r : List α) (h : s.calls i = .done r) : (s.step j b).calls i = .done r := by
  by_cases hj : j = i
  · subst hj
    unfold State.step
    rw [h]
    exact h
  · rw [step_other s hj]; exact h

theorem run_done (sched : List (Nat × Bool)) (s : State α) (i : Nat) (r : List α) (h : s.calls i = .done r) : (s.run sched).calls i = .done r := by
  induction sched generalizing s with
  | nil => exact h
  | cons x l ih => exact ih (s.step x.1 x.2) (step_done s i x.1 x.2 r h)

theorem step_failed (s : State α) (i j : Nat) (b : Bool) (h : s.calls i = .failed) : (s.step j b).calls i = .failed := by
  by_cases hj : j = i
  · subst hj
    unfold State.step
    rw [h]
    exact h
  · rw [step_other s hj]; exact h

theorem run_append (s : State α) (a b : List (Nat × Bool)) : s.run (a ++ b) = (s.run a).run b := by
  simp [State.run, List.foldl_append]

theorem toSadl_examples (d : ODoc) (name : String) (m : Model) (h : toSadl d name = .ok m) : m.schema.examples = docExamples d := by
  unfold toSadl at h
  simp only at h
  obtain ⟨a, ha, h⟩ := bind_ok_iff.1 h
  obtain ⟨b, hb, h⟩ := bind_ok_iff.1 h
  have := ((newModel_ok_iff _ m).1 h).2.2.2
  rw [this]
  simp [docExamples, ha, hb, Out.bind]

end Sadl.Shared
