import Verif.Model.Path
import Verif.Spec.Path
import Verif.Lemmas.GoExport
/-
Cleaning and joining paths keeps their meaning.
-/
namespace Sadl
open Sadl.Spec

theorem walk_append (a b : List (List Char)) : ∀ place, walk place (a ++ b) = walk (walk place a) b := by
  induction a with
  | nil => intro place; rfl
  | cons p a ih =>
    intro place
    rw [List.cons_append, walk, walk]
    split
    · exact ih place
    · split
      · exact ih _
      · exact ih _

theorem walk_name {p : List Char} (h : PlainName p) (place : List (List Char)) : walk place [p] = p :: place := by
  obtain ⟨h1, h2, h3, _⟩ := h
  simp [walk, h1, h2, h3]

theorem walk_plain {l : List (List Char)} (h : ∀ n ∈ l, PlainName n) : ∀ place, walk place l = l.reverse ++ place := by
  induction l with
  | nil => intro place; rfl
  | cons p l ih =>
    intro place
    rw [show p :: l = [p] ++ l from rfl, walk_append, walk_name (h p (by simp)), ih fun n hn => h n (by simp [hn])]
    simp

/-- An element that a cleaned path keeps. -/
def KeptName (n : List Char) : Prop := n ≠ [] ∧ n ≠ ['.']

theorem walk_cleanParts (rooted : Bool) (parts : List (List Char)) : ∀ (kept place : List (List Char)),
    (∀ n ∈ kept, KeptName n) → (rooted = true → place = []) →
    walk place (cleanParts rooted kept parts) = walk place (kept.reverse ++ parts) := by
  induction parts with
  | nil => intro kept place _ _; simp [cleanParts]
  | cons p rest ih =>
    intro kept place hk hr
    unfold cleanParts
    by_cases h1 : p = [] ∨ p = ['.']
    · rw [if_pos h1, ih kept place hk hr, walk_append, walk_append, walk, if_pos h1]
    · rw [if_neg h1]
      have hp : KeptName p := ⟨fun e => h1 (.inl e), fun e => h1 (.inr e)⟩
      have hcons : ∀ kept', (∀ n ∈ kept', KeptName n) → ∀ n ∈ p :: kept', KeptName n := by
        intro kept' h n hn
        rcases List.mem_cons.1 hn with rfl | hn
        · exact hp
        · exact h n hn
      by_cases h2 : p = ['.', '.']
      · rw [if_pos h2]
        match kept, hk with
        | [], _ =>
          dsimp only
          cases rooted with
          | true =>
            rw [if_pos rfl, ih [] place (by simp) hr]
            have : place = [] := hr rfl
            subst this
            simp [walk, h1, h2]
          | false =>
            rw [if_neg (by simp), ih [p] place (hcons [] (by simp)) hr]
            rfl
        | k :: kept', hk =>
          dsimp only
          by_cases h3 : k = ['.', '.']
          · rw [if_pos h3, ih (p :: k :: kept') place (hcons _ hk) hr]
            simp
          · rw [if_neg h3, ih kept' place (fun n hn => hk n (by simp [hn])) hr]
            have h4 : KeptName k := hk k (by simp)
            have h5 : ¬ (k = [] ∨ k = ['.']) := fun h => h.elim h4.1 h4.2
            have h6 : ∀ pl, walk pl (k :: p :: rest) = walk pl rest := by
              intro pl
              rw [walk, if_neg h5, if_neg h3, walk, if_neg h1, if_pos h2, List.tail_cons]
            rw [List.reverse_cons, List.append_assoc, walk_append, walk_append, List.singleton_append, h6]
      · rw [if_neg h2, ih (p :: kept) place (hcons kept hk) hr]
        simp

theorem cleanParts_mem (rooted : Bool) (parts : List (List Char)) : ∀ kept n, n ∈ cleanParts rooted kept parts →
    n ∈ kept ∨ (n ∈ parts ∧ n ≠ []) := by
  induction parts with
  | nil => intro kept n h; simp [cleanParts] at h; exact .inl h
  | cons p rest ih =>
    intro kept n h
    have up : ∀ {kept' : List (List Char)}, n ∈ cleanParts rooted kept' rest → (∀ x ∈ kept', x ∈ kept ∨ (x = p ∧ p ≠ [])) →
        n ∈ kept ∨ (n ∈ p :: rest ∧ n ≠ []) := by
      intro kept' h hk
      rcases ih kept' n h with h | h
      · rcases hk n h with h | ⟨rfl, h⟩
        · exact .inl h
        · exact .inr ⟨by simp, h⟩
      · exact .inr ⟨by simp [h.1], h.2⟩
    unfold cleanParts at h
    split at h
    · exact up h fun x hx => .inl hx
    · next h1 =>
      have hp : p ≠ [] := fun e => h1 (.inl e)
      split at h
      · split at h
        · split at h
          · exact up h (by simp)
          · exact up h (by simp [hp])
        · split at h
          · exact up h fun x hx => by rcases List.mem_cons.1 hx with h | h; exacts [.inr ⟨h, hp⟩, .inl h]
          · exact up h fun x hx => .inl (by simp [hx])
      · exact up h fun x hx => by rcases List.mem_cons.1 hx with h | h; exacts [.inr ⟨h, hp⟩, .inl h]

theorem splitAll_mem {c : Char} {s : List Char} : ∀ w ∈ splitAll c s, c ∉ w := by
  induction s with
  | nil => simp [splitAll]
  | cons x r ih =>
    unfold splitAll
    intro w hw
    by_cases hx : x = c
    · simp only [hx, beq_self_eq_true, if_true] at hw
      rcases List.mem_cons.1 hw with rfl | hw
      · simp
      · exact ih w hw
    · split at hw
      · next h => exact absurd (by simpa using h) hx
      · split at hw
        · next h => exact absurd h (splitAll_ne_nil c r)
        · next w' ws' h =>
          rw [h] at ih
          rcases List.mem_cons.1 hw with rfl | hw
          · intro hm
            rcases List.mem_cons.1 hm with e | hm
            · exact hx e.symm
            · exact ih w' (by simp) hm
          · exact ih w (by simp [hw])

theorem denotes_clean (cwd : List (List Char)) (s : String) : Denotes cwd (cleanPath s) = Denotes cwd s := by
  unfold cleanPath
  by_cases h0 : s.toList = []
  · rw [if_pos h0]
    unfold Denotes
    rw [h0]
    simp [splitAll, walk]
  · rw [if_neg h0]
    dsimp only
    have hparts : ∀ r, ∀ n ∈ cleanParts r [] (splitAll '/' s.toList), '/' ∉ n ∧ n ≠ [] := by
      intro r n hn
      rcases cleanParts_mem r _ [] n hn with h | h
      · simp at h
      · exact ⟨splitAll_mem n h.1, h.2⟩
    by_cases hr : s.toList.head? = some '/'
    · rw [if_pos (by simpa using hr)]
      have hd : (decide (s.toList.head? = some '/')) = true := by simpa using hr
      rw [hd]
      have hp := hparts true
      have hw := walk_cleanParts true (splitAll '/' s.toList) [] [] (by simp) (by simp)
      generalize cleanParts true [] (splitAll '/' s.toList) = parts at hp hw
      unfold Denotes
      rw [if_pos hr, if_pos (by simp), String.toList_ofList]
      simp only [List.reverse_nil, List.nil_append] at hw
      rw [← hw]
      have hsplit : splitAll '/' ('/' :: joinWith '/' parts) = [] :: splitAll '/' (joinWith '/' parts) := by simp [splitAll]
      rw [hsplit, walk, if_pos (by simp)]
      by_cases hne : parts = []
      · subst hne; simp [joinWith, splitAll, walk]
      · rw [splitAll_joinWith hne fun w hw => (hp w hw).1]
    · rw [if_neg (by simpa using hr)]
      have hd : (decide (s.toList.head? = some '/')) = false := by simpa using hr
      rw [hd]
      have hp := hparts false
      have hw := walk_cleanParts false (splitAll '/' s.toList) [] cwd (by simp) (by simp)
      generalize cleanParts false [] (splitAll '/' s.toList) = parts at hp hw
      simp only [List.reverse_nil, List.nil_append] at hw
      unfold Denotes
      rw [if_neg hr, ← hw]
      by_cases hne : parts = []
      · subst hne
        simp [splitAll, walk]
      · rw [if_neg hne, String.toList_ofList, splitAll_joinWith hne fun w hw => (hp w hw).1]
        have hh : ¬ (joinWith '/' parts).head? = some '/' := by
          match parts, hne with
          | w :: ws, _ =>
            obtain ⟨h1, h2⟩ := hp w (by simp)
            match w, h2 with
            | c :: cs, _ =>
              have : c ≠ '/' := fun e => h1 (by simp [e])
              cases ws <;> simp [joinWith, this]
        rw [if_neg hh]

theorem denotes_empty (cwd : List (List Char)) : Denotes cwd "" = cwd := by
  unfold Denotes
  rw [show "".toList = [] from rfl]
  simp [splitAll, walk]

theorem splitAll_sep (c : Char) (a b : List Char) : splitAll c (a ++ c :: b) = splitAll c a ++ splitAll c b := by
  have h := splitAll_joinWith (c := c) (ws := splitAll c a ++ splitAll c b)
    (by simp [splitAll_ne_nil]) (by
      intro w hw
      rcases List.mem_append.1 hw with h | h
      · exact splitAll_mem w h
      · exact splitAll_mem w h)
  rw [joinWith_append c (splitAll_ne_nil c a) (splitAll_ne_nil c b), joinWith_splitAll, joinWith_splitAll] at h
  exact h

/-- Joining: the second path is followed from where the first one leads. -/
theorem denotes_join (cwd : List (List Char)) (dir name : String) (hn : name.toList.head? ≠ some '/') :
    Denotes cwd (joinPath dir name) = walk (Denotes cwd dir) (splitAll '/' name.toList) := by
  unfold joinPath
  by_cases hd : dir = ""
  · subst hd
    rw [if_neg (by simp), denotes_empty]
    by_cases hm : name = ""
    · subst hm
      rw [if_neg (by simp), denotes_empty, show "".toList = [] from rfl]
      simp [splitAll, walk]
    · rw [if_pos hm, denotes_clean]
      unfold Denotes
      rw [if_neg hn]
  · rw [if_pos hd, denotes_clean]
    unfold Denotes
    have h1 : (dir ++ "/" ++ name).toList = dir.toList ++ '/' :: name.toList := by
      rw [String.toList_append, String.toList_append]; simp
    have h2 : dir.toList ≠ [] := by
      intro e
      apply hd
      have := congrArg String.ofList e
      simpa using this
    have h3 : (dir.toList ++ '/' :: name.toList).head? = dir.toList.head? := by
      cases h : dir.toList with
      | nil => exact absurd h h2
      | cons c r => rfl
    rw [h1, splitAll_sep, walk_append, h3]

theorem denotes_join_plain (cwd : List (List Char)) (dir : String) {names : List (List Char)} (hne : names ≠ [])
    (h : ∀ n ∈ names, PlainName n) :
    Denotes cwd (joinPath dir (String.ofList (joinWith '/' names))) = names.reverse ++ Denotes cwd dir := by
  obtain ⟨c, r, hj, hc⟩ := joinWith_head hne h
  rw [denotes_join _ _ _ (by rw [String.toList_ofList, hj]; simpa using hc), String.toList_ofList,
    splitAll_joinWith hne fun w hw => (h w hw).2.2.2, walk_plain h]

end Sadl
