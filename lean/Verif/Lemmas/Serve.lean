import Verif.Spec.Serve
import Verif.Lemmas.Text
import Mathlib.Tactic.SplitIfs
import Mathlib.Tactic.Common
/-
The Swagger server: the files of the archive, the shared reader of the document, the cached archive.
-/
namespace Sadl
open Sadl.Spec
namespace Serve

/-! ### Files -/

theorem splitAll_dist {name : List Char} {top : List Char} {rest : List (List Char)} (h : splitAll '/' name = top :: "dist".toList :: rest) :
    '/' ∉ top ∧ (name = top ++ "/dist".toList ∨ ∃ r, name = top ++ "/dist/".toList ++ r) ∧
    joinWith '/' ((splitAll '/' name).take 2) = top ++ "/dist".toList := by
  have h1 : '/' ∉ top := not_mem_splitAll '/' name top (by rw [h]; exact List.mem_cons_self)
  have h2 := joinWith_splitAll '/' name
  rw [h] at h2 ⊢
  refine ⟨h1, ?_, rfl⟩
  cases rest with
  | nil => exact .inl h2.symm
  | cons r rs =>
    refine .inr ⟨joinWith '/' (r :: rs), ?_⟩
    rw [← h2]
    simp [joinWith]

theorem isDist_iff (f : Entry) : isDist f = true ↔ ∃ top, InDist f top := by
  unfold isDist
  constructor
  · intro h
    split at h
    · next top second rest hs =>
      rw [of_decide_eq_true h] at hs
      obtain ⟨h1, h2, _⟩ := splitAll_dist hs
      exact ⟨top, h1, h2⟩
    · cases h
  · rintro ⟨top, h1, h2 | ⟨r, h2⟩⟩
    · have : splitAll '/' f.name = top :: splitAll '/' "dist".toList := by
        rw [h2]; exact splitAll_append h1 "dist".toList
      rw [this]
      have : splitAll '/' "dist".toList = ["dist".toList] := by decide
      rw [this]
      simp
    · have : splitAll '/' f.name = top :: splitAll '/' ("dist".toList ++ '/' :: r) := by
        rw [h2]
        have := splitAll_append h1 ("dist".toList ++ '/' :: r)
        simpa using this
      rw [this, splitAll_append (by decide)]
      simp

theorem distPrefix_of {archive : List Entry} {f : Entry} (h : archive.find? isDist = some f) {top : List Char} (ht : InDist f top) :
    distPrefix archive = top ++ "/dist".toList := by
  unfold distPrefix
  rw [h]
  simp only
  obtain ⟨h1, h2 | ⟨r, h2⟩⟩ := ht
  · have h3 : splitAll '/' f.name = [top, "dist".toList] := by
      rw [h2]
      have := splitAll_append h1 "dist".toList
      have h4 : splitAll '/' "dist".toList = ["dist".toList] := by decide
      rw [h4] at this
      exact this
    rw [h3]; rfl
  · have h3 : splitAll '/' f.name = top :: "dist".toList :: splitAll '/' r := by
      rw [h2]
      have := splitAll_append h1 ("dist".toList ++ '/' :: r)
      rw [splitAll_append (c := '/') (w := "dist".toList) (by decide)] at this
      simpa using this
    rw [h3]; rfl

theorem inDist_unique {f : Entry} {a b : List Char} (ha : InDist f a) (hb : InDist f b) : a = b := by
  have key : ∀ {t : List Char}, InDist f t → (splitAll '/' f.name).head? = some t := by
    rintro t ⟨h1, h2 | ⟨r, h2⟩⟩
    · rw [h2]
      have := splitAll_append h1 "dist".toList
      exact (congrArg List.head? this).trans rfl
    · rw [h2]
      have := splitAll_append h1 ("dist".toList ++ '/' :: r)
      have := (congrArg List.head? this).trans (rfl : _ = some t)
      simpa using this
  have := (key ha).symm.trans (key hb)
  exact Option.some.inj this

/-- Either there is a directory `dist`, and the prefix is its name, or no entry begins with the prefix. -/
theorem distPrefix_cases (archive : List Entry) :
    (DistDir archive (distPrefix archive) ∧ ∀ dir, DistDir archive dir → dir = distPrefix archive) ∨
    ((∀ dir, ¬ DistDir archive dir) ∧ ∀ f ∈ archive, (distPrefix archive).isPrefixOf f.name = false) := by
  cases h : archive.find? isDist with
  | some f =>
    left
    obtain ⟨hf, before, after, ha, hb⟩ := List.find?_eq_some_iff_append.1 h
    obtain ⟨top, ht⟩ := (isDist_iff f).1 hf
    have hp := distPrefix_of h ht
    have hb' : ∀ g ∈ before, ∀ t, ¬ InDist g t := by
      intro g hg t hgt
      have := hb g hg
      rw [(isDist_iff g).2 ⟨t, hgt⟩] at this
      cases this
    refine ⟨⟨before, f, after, top, ha, ht, hp, hb'⟩, ?_⟩
    rintro dir ⟨before', f', after', top', ha', ht', rfl, hb''⟩
    have hfind : archive.find? isDist = some f' := by
      refine List.find?_eq_some_iff_append.2 ⟨(isDist_iff f').2 ⟨top', ht'⟩, before', after', ha', ?_⟩
      intro g hg
      cases hd : isDist g with
      | false => rfl
      | true =>
        obtain ⟨t, hgt⟩ := (isDist_iff g).1 hd
        exact absurd hgt (hb'' g hg t)
    rw [distPrefix_of hfind ht']
  | none =>
    right
    rw [List.find?_eq_none] at h
    constructor
    · rintro dir ⟨before, f, after, top, ha, ht, _, _⟩
      exact h f (by rw [ha]; simp) ((isDist_iff f).2 ⟨top, ht⟩)
    · intro f hf
      have hp : distPrefix archive = "swagger-ui-3.43.0/dist/".toList := by
        unfold distPrefix
        rw [List.find?_eq_none.2 h]
      rw [hp]
      by_contra hc
      rw [Bool.not_eq_false, List.isPrefixOf_iff_prefix] at hc
      obtain ⟨r, hr⟩ := hc
      refine h f hf ((isDist_iff f).2 ⟨"swagger-ui-3.43.0".toList, by decide, .inr ⟨r, ?_⟩⟩)
      rw [← hr]
      rfl

theorem foldl_lookup (pre : List Char) (path : List Char) : ∀ (archive : List Entry) (acc : List (List Char × Entry)),
    (archive.foldl (fun files f => if pre.isPrefixOf f.name then (f.name.drop pre.length, f) :: files else files) acc).lookup path =
    match archive.reverse.find? (fun f => pre.isPrefixOf f.name && decide (f.name.drop pre.length = path)) with
    | some f => some f
    | none => acc.lookup path := by
  intro archive
  induction archive with
  | nil => intro acc; rfl
  | cons f rest ih =>
    intro acc
    rw [List.foldl_cons, ih, List.reverse_cons, List.find?_append]
    cases hf : rest.reverse.find? (fun f => pre.isPrefixOf f.name && decide (f.name.drop pre.length = path)) with
    | some g => rfl
    | none =>
      simp only [Option.none_or]
      by_cases h1 : pre.isPrefixOf f.name = true
      · rw [if_pos h1, List.lookup_cons]
        by_cases h2 : f.name.drop pre.length = path
        · simp [List.find?, h1, h2]
        · have : (path == f.name.drop pre.length) = false := by simp [Ne.symm h2]
          simp [List.find?, h1, h2, this]
      · have : pre.isPrefixOf f.name = false := Bool.eq_false_iff.2 h1
        simp [List.find?, this]

theorem pred_iff (pre path : List Char) (f : Entry) :
    (pre.isPrefixOf f.name && decide (f.name.drop pre.length = path)) = true ↔ f.name = pre ++ path := by
  rw [Bool.and_eq_true, List.isPrefixOf_iff_prefix, decide_eq_true_iff]
  constructor
  · rintro ⟨⟨r, h1⟩, h2⟩
    rw [← h1] at h2 ⊢
    rw [List.drop_left] at h2
    rw [h2]
  · intro h
    rw [h]
    exact ⟨⟨path, rfl⟩, List.drop_left⟩

theorem lookup_iff (archive : List Entry) (path : List Char) :
    (∀ f, (distFiles archive).lookup path = some f → EntryOf archive (distPrefix archive ++ path) f) ∧
    ((distFiles archive).lookup path = none → ∀ f, ¬ EntryOf archive (distPrefix archive ++ path) f) := by
  unfold distFiles
  simp only
  rw [foldl_lookup]
  constructor
  · intro f h
    split at h
    · next g hg =>
      cases h
      obtain ⟨h1, as, bs, h2, h3⟩ := List.find?_eq_some_iff_append.1 hg
      have h4 : archive = bs.reverse ++ f :: as.reverse := by
        have := congrArg List.reverse h2
        simpa using this
      refine ⟨bs.reverse, as.reverse, h4, (pred_iff _ _ f).1 h1, fun g hg hn => ?_⟩
      have := h3 g (List.mem_reverse.1 hg)
      rw [(pred_iff _ _ g).2 hn] at this
      cases this
    · cases h
  · intro h f hf
    split at h
    · cases h
    · next hn =>
      rw [List.find?_eq_none] at hn
      obtain ⟨b, a, h1, h2, _⟩ := hf
      exact hn f (by rw [h1]; simp) ((pred_iff _ _ f).2 h2)

theorem replaced_all {pat val : List Char} (hp : pat ≠ []) : ∀ (n : Nat) (s : List Char), s.length ≤ n → Replaced pat val s (replaceAll pat val s) := by
  have skip : ∀ (k : Nat) (s : List Char), k ≤ s.length → replaceFrom pat val k s = replaceFrom pat val 0 (s.drop k) := by
    intro k
    induction k with
    | zero => intro s _; rfl
    | succ k ih =>
      intro s h
      cases s with
      | nil => simp at h
      | cons c s => rw [replaceFrom, ih s (by simpa using h)]; rfl
  intro n
  induction n with
  | zero =>
    intro s h
    have : s = [] := List.eq_nil_of_length_eq_zero (Nat.le_zero.1 h)
    subst this
    exact .nil
  | succ n ih =>
    intro s h
    cases s with
    | nil => exact .nil
    | cons c s =>
      unfold replaceAll
      rw [replaceFrom]
      split_ifs with hpre
      · rw [List.isPrefixOf_iff_prefix] at hpre
        obtain ⟨r, hr⟩ := hpre
        obtain ⟨p, ps, rfl⟩ := List.exists_cons_of_ne_nil hp
        simp only [List.cons_append, List.cons.injEq] at hr
        obtain ⟨rfl, rfl⟩ := hr
        rw [List.length_cons, Nat.add_sub_cancel, skip _ _ (by simp), List.drop_left]
        refine .hit (pat := p :: ps) (ih r ?_)
        simp at h; omega
      · rw [List.isPrefixOf_iff_prefix] at hpre
        exact .miss hpre (ih s (by simpa using h))

/-! ### The document -/

section
variable {α : Type}

@[simp] theorem setReq_doc (s : Server α) (i : Nat) (r : Request α) : (s.setReq i r).doc = s.doc := rfl
@[simp] theorem setReq_pos (s : Server α) (i : Nat) (r : Request α) : (s.setReq i r).pos = s.pos := rfl
theorem setReq_same (s : Server α) (i : Nat) (r : Request α) : (s.setReq i r).reqs i = r := by simp [Server.setReq]
theorem setReq_other (s : Server α) {i j : Nat} (r : Request α) (h : j ≠ i) : (s.setReq i r).reqs j = s.reqs j := by simp [Server.setReq, h]

theorem step_doc (s : Server α) (i k : Nat) : (s.step i k).doc = s.doc := by
  unfold Server.step
  simp only
  split
  · rfl
  · rfl
  · rfl
  · split_ifs <;> rfl
  · rfl

theorem step_other (s : Server α) {i j : Nat} (k : Nat) (h : j ≠ i) : (s.step i k).reqs j = s.reqs j := by
  unfold Server.step
  simp only
  split
  · exact setReq_other s _ h
  · exact setReq_other s _ h
  · exact setReq_other s _ h
  · split_ifs
    · exact setReq_other s _ h
    · exact setReq_other s _ h
  · rfl

theorem run_doc (s : Server α) (l : List (Nat × Nat)) : (s.run l).doc = s.doc := by
  induction l generalizing s with
  | nil => rfl
  | cons x l ih => exact (ih _).trans (step_doc s x.1 x.2)

theorem run_append (s : Server α) (a b : List (Nat × Nat)) : s.run (a ++ b) = (s.run a).run b := by
  unfold Server.run
  rw [List.foldl_append]

theorem run_other (s : Server α) {j : Nat} (l : List (Nat × Nat)) (h : ∀ x ∈ l, x.1 ≠ j) : (s.run l).reqs j = s.reqs j := by
  induction l generalizing s with
  | nil => rfl
  | cons x l ih =>
    exact (ih (s.step x.1 x.2) (fun y hy => h y (List.mem_cons_of_mem _ hy))).trans
      (step_other s x.2 (h x List.mem_cons_self).symm)

theorem step_done (s : Server α) {j : Nat} (i k : Nat) (h : (s.reqs j).phase = .done) : (s.step i k).reqs j = s.reqs j := by
  by_cases hj : j = i
  · subst hj
    unfold Server.step
    simp only [h]
  · exact step_other s k hj

theorem run_done (s : Server α) {j : Nat} (l : List (Nat × Nat)) (h : (s.reqs j).phase = .done) : (s.run l).reqs j = s.reqs j := by
  induction l generalizing s with
  | nil => rfl
  | cons x l ih =>
    have h1 := step_done s x.1 x.2 h
    exact (ih (s.step x.1 x.2) (by rw [h1]; exact h)).trans h1

/-- True of every request at any time. -/
def ReqOk (doc : List α) (r : Request α) : Prop :=
  (∀ b ∈ r.out, b ∈ doc) ∧
  match r.phase with
  | .start => r.out = []
  | .sized n => n = doc.length ∧ r.out = []
  | .copying left => r.out.length + left ≤ doc.length
  | .done => r.out.length ≤ doc.length

theorem step_ok (s : Server α) (i k j : Nat) (h : ∀ j, ReqOk s.doc (s.reqs j)) : ReqOk s.doc ((s.step i k).reqs j) := by
  by_cases hj : j = i
  swap
  · rw [step_other s k hj]; exact h j
  subst hj
  have hi := h j
  unfold Server.step
  simp only
  unfold ReqOk at hi
  split
  · next hp =>
    rw [hp] at hi
    show ReqOk s.doc ((s.setReq j _).reqs j)
    rw [setReq_same]
    exact ⟨hi.1, rfl, hi.2⟩
  · next n hp =>
    rw [hp] at hi
    show ReqOk s.doc ((s.setReq j _).reqs j)
    rw [setReq_same]
    refine ⟨hi.1, ?_⟩
    simp only
    rw [hi.2.1, hi.2.2]
    simp
  · next hp =>
    rw [hp] at hi
    rw [setReq_same]
    exact ⟨hi.1, by simpa using hi.2⟩
  · next left hp =>
    rw [hp] at hi
    have h2 := hi.2
    simp only at h2
    split_ifs with hl
    · rw [setReq_same]
      refine ⟨hi.1, ?_⟩
      simp only
      omega
    · show ReqOk s.doc ((s.setReq j _).reqs j)
      rw [setReq_same]
      refine ⟨?_, ?_⟩
      · intro b hb
        rcases List.mem_append.1 hb with h' | h'
        · exact hi.1 b h'
        · exact List.mem_of_mem_drop (List.mem_of_mem_take h')
      · simp only [List.length_append, List.length_take, List.length_drop]
        omega
  · exact h j

theorem run_ok (s : Server α) (l : List (Nat × Nat)) (h : ∀ j, ReqOk s.doc (s.reqs j)) (j : Nat) : ReqOk s.doc ((s.run l).reqs j) := by
  induction l generalizing s with
  | nil => exact h j
  | cons x l ih =>
    have := ih (s.step x.1 x.2) (fun j => by rw [step_doc]; exact step_ok s x.1 x.2 j h)
    rw [step_doc] at this
    exact this

/-- True of a request that is not disturbed. -/
def Alone (s : Server α) (i : Nat) : Prop :=
  match (s.reqs i).phase with
  | .start => (s.reqs i).out = []
  | .sized n => n = s.doc.length ∧ (s.reqs i).out = []
  | .copying left => (s.reqs i).out = s.doc.take s.pos ∧ left = s.doc.length - s.pos
  | .done => (s.reqs i).out = s.doc

/-- An upper bound of the number of steps a request still makes. -/
def stepsLeft (doc : List α) (r : Request α) : Nat :=
  match r.phase with
  | .start => doc.length + 3
  | .sized _ => doc.length + 2
  | .copying left => left + 1
  | .done => 0

theorem step_alone (s : Server α) (i k : Nat) (h : Alone s i) :
    Alone (s.step i k) i ∧ stepsLeft s.doc ((s.step i k).reqs i) ≤ stepsLeft s.doc (s.reqs i) - 1 := by
  unfold Alone at h
  unfold Server.step
  simp only
  split
  · next hp =>
    rw [hp] at h
    have e : (({ s.setReq i { s.reqs i with phase := .sized s.doc.length } with pos := s.doc.length } : Server α).reqs i) =
        { s.reqs i with phase := .sized s.doc.length } := setReq_same s i _
    refine ⟨?_, ?_⟩
    · unfold Alone
      rw [e]
      exact ⟨rfl, h⟩
    · rw [e]; simp [stepsLeft, hp]
  · next n hp =>
    rw [hp] at h
    have e : (({ s.setReq i { s.reqs i with phase := .copying n } with pos := 0 } : Server α).reqs i) =
        { s.reqs i with phase := .copying n } := setReq_same s i _
    refine ⟨?_, ?_⟩
    · unfold Alone
      rw [e]
      simp only [List.take_zero, Nat.sub_zero]
      exact ⟨h.2, h.1⟩
    · rw [e]; simp [stepsLeft, hp, h.1]
  · next hp =>
    rw [hp] at h
    refine ⟨?_, ?_⟩
    · unfold Alone
      rw [setReq_same]
      simp only [setReq_doc]
      rw [h.1, List.take_of_length_le (by omega)]
    · rw [setReq_same]; simp [stepsLeft]
  · next left hp =>
    rw [hp] at h
    obtain ⟨h1, h2⟩ := h
    split_ifs with hl
    · omega
    · generalize hn : min (min (k + 1) (left + 1)) (s.doc.length - s.pos) = n
      have e : (({ s.setReq i { phase := .copying (left + 1 - n), out := (s.reqs i).out ++ (s.doc.drop s.pos).take n } with pos := s.pos + n } : Server α).reqs i) =
        { phase := .copying (left + 1 - n), out := (s.reqs i).out ++ (s.doc.drop s.pos).take n } := setReq_same s i _
      refine ⟨?_, ?_⟩
      · unfold Alone
        rw [e]
        simp only
        refine ⟨?_, ?_⟩
        · rw [h1]; exact (List.take_add).symm
        · show _ = s.doc.length - (s.pos + n)
          omega
      · rw [e]; simp only [stepsLeft, hp]; omega
  · next hp =>
    rw [hp] at h
    refine ⟨?_, by simp [stepsLeft, hp]⟩
    unfold Alone
    rw [hp]
    exact h

theorem run_alone (s : Server α) (i : Nat) (l : List (Nat × Nat)) (hl : ∀ x ∈ l, x.1 = i) (h : Alone s i) :
    Alone (s.run l) i ∧ stepsLeft s.doc ((s.run l).reqs i) ≤ stepsLeft s.doc (s.reqs i) - l.length := by
  induction l generalizing s with
  | nil => exact ⟨h, by simp [Server.run]⟩
  | cons x l ih =>
    obtain ⟨a, b⟩ := x
    have ha : a = i := hl (a, b) List.mem_cons_self
    subst ha
    obtain ⟨h1, h2⟩ := step_alone s a b h
    obtain ⟨h3, h4⟩ := ih (s.step a b) (fun y hy => hl y (List.mem_cons_of_mem _ hy)) h1
    rw [step_doc] at h4
    refine ⟨h3, ?_⟩
    show stepsLeft s.doc (((s.step a b).run l).reqs a) ≤ _
    rw [List.length_cons]
    omega
end

end Serve
end Sadl
