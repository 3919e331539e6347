import Verif.Model.Logger
import Mathlib.Data.List.Induction
import Mathlib.Tactic.Ring

/-! # The event log, property C15 -/

namespace Odes.Logger

variable {D : Type}

/-- the event a call records. -/
def event : Op D → Option (Event D)
  | .clear => none
  | .put t s k v => some ⟨t, s, k, v⟩

/-- the events recorded since the last `clear`: the longest suffix of the calls without `clear`. -/
def recorded (l : List (Op D)) : List (Event D) :=
  ((l.reverse.takeWhile fun o => (event o).isSome).reverse).filterMap event

/-- the events matching a filter. -/
def matching (E : Kind) (l : List (Event D)) : List (Event D) :=
  l.filter fun e => E = .all || e.kind = E

/-- text of the event with number `k`. -/
def line (str : D → String) (e : Event D) (k : ℕ) : String :=
  toString k ++ (" Time: " ++ (str e.time ++ (" step: " ++ (toString e.step ++ (" Event: " ++
    (e.kind.name ++ ((if e.kind = .changedH ∨ e.kind = .rejectedStep then
      " new step: " ++ str e.value else "") ++ "\n")))))))

/-- C15: the log contains exactly the events recorded since the last `clear`, in order. -/
theorem logger_records (l : List (Op D)) : history l = recorded l := by
  induction l using List.reverseRecOn with
  | nil => rfl
  | append_singleton l o ih =>
    unfold history at ih ⊢
    rw [List.foldl_append, List.foldl_cons, List.foldl_nil, ih]
    unfold recorded
    rw [List.reverse_append, List.reverse_singleton, List.singleton_append]
    cases o with
    | clear => rw [List.takeWhile_cons_of_neg (by simp [event])]; rfl
    | put t s k v =>
      rw [List.takeWhile_cons_of_pos (by simp [event]), List.reverse_cons, List.filterMap_append]
      rfl

theorem join_cons (a : String) (l : List String) : String.join (a :: l) = a ++ String.join l := by
  have key : ∀ (l : List String) (r : String), l.foldl (fun r s => r ++ s) r =
      r ++ l.foldl (fun r s => r ++ s) "" := by
    intro l
    induction l with
    | nil => intro r; simp
    | cons b l ih =>
      intro r
      rw [List.foldl_cons, List.foldl_cons, ih, ih ("" ++ b)]
      simp [String.append_assoc]
  unfold String.join
  rw [List.foldl_cons, key]
  simp

/-- C15: the text lists the matching events since the last `clear` in recording order, numbered from
1. -/
theorem logger_text (str : D → String) (E : Kind) (l : List (Op D)) :
    text str E (history l) =
      String.join (((matching E (recorded l)).zipIdx 1).map fun p => line str p.1 p.2) := by
  rw [logger_records]
  have key : ∀ (L : List (Event D)) (r : String) (k : ℕ),
      (L.foldl (visit str E) (r, (k : ℤ))).1 =
        r ++ String.join (((matching E L).zipIdx (k + 1)).map fun p => line str p.1 p.2) := by
    intro L
    induction L with
    | nil => intro r k; simp [matching, String.join]
    | cons e L ih =>
      intro r k
      rw [List.foldl_cons]
      by_cases h : e.kind = E ∨ E = .all
      · have hm : matching E (e :: L) = e :: matching E L := by
          unfold matching
          rw [List.filter_cons_of_pos]
          rcases h with h | h <;> simp [h]
        rw [hm, List.zipIdx_cons, List.map_cons, join_cons, ← String.append_assoc]
        have hv : visit str E (r, (k : ℤ)) e = (r ++ line str e (k + 1), ((k + 1 : ℕ) : ℤ)) := by
          unfold visit line
          rw [if_pos h]
          dsimp only
          congr 1
          · congr 1
            have e1 : toString ((k : ℤ) + 1) = toString (k + 1) := rfl
            rw [e1]
            split <;> simp [String.append_assoc]
        rw [hv, ih]
      · have hm : matching E (e :: L) = matching E L := by
          unfold matching
          rw [List.filter_cons_of_neg]
          simp only [not_or] at h
          simp [h.1, h.2]
        have hv : visit str E (r, (k : ℤ)) e = (r, (k : ℤ)) := by
          unfold visit; rw [if_neg h]
        rw [hm, hv, ih]
  have := key (recorded l) "" 0
  unfold text
  rw [show (("" : String), (0 : ℤ)) = ("", ((0 : ℕ) : ℤ)) from rfl, this]
  simp

/-- C15: after `clear` the text is empty, whatever the filter. -/
theorem logger_clear (str : D → String) (E : Kind) (l : List (Op D)) :
    text str E (history (l ++ [.clear])) = "" := by
  unfold history
  rw [List.foldl_append]
  rfl

/-- C15: with the filter `all` every event since the last `clear` is listed. -/
theorem logger_all (str : D → String) (l : List (Op D)) :
    text str .all (history l) =
      String.join (((recorded l).zipIdx 1).map fun p => line str p.1 p.2) := by
  rw [logger_text]
  congr 3
  unfold matching
  exact List.filter_eq_self.2 (by simp)

example : text (fun _ : Unit => "0.5") .changedH (history
    [.put () 1 .changedH (), .clear, .put () 2 .success (), .put () 3 .changedH ()]) =
    "1 Time: 0.5 step: 3 Event: changedH new step: 0.5\n" := by
  rw [logger_text]
  rfl

end Odes.Logger
