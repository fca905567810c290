import Verif.Lemmas.Basic
import Verif.Lemmas.Text
import Verif.Spec.GoExport
/-
Running a generator: paths, and the files after a run.
-/
namespace Sadl

/-! ### Paths -/

theorem splitAll_suffix {c : Char} {a w : List Char} (h : c ∉ w) :
    ∃ i l, splitAll c a = i ++ [l] ∧ splitAll c (a ++ w) = i ++ [l ++ w] := by
  induction a with
  | nil => exact ⟨[], [], rfl, by simp [splitAll_not_mem h]⟩
  | cons x r ih =>
    obtain ⟨i, l, h1, h2⟩ := ih
    rw [List.cons_append, splitAll, splitAll]
    by_cases hx : x = c
    · rw [if_pos hx, if_pos hx, h1, h2]
      exact ⟨[] :: i, l, by simp, by simp⟩
    · rw [if_neg hx, if_neg hx, h1, h2]
      cases i with
      | nil => exact ⟨[], x :: l, by simp, by simp⟩
      | cons y i => exact ⟨(x :: y) :: i, l, by simp, by simp⟩

theorem cleanParts_last (rooted : Bool) {p : List Char} (h1 : p ≠ []) (h2 : p ≠ ['.']) (h3 : p ≠ ['.', '.']) (l : List (List Char)) :
    ∀ kept, ∃ i, cleanParts rooted kept (l ++ [p]) = i ++ [p] := by
  induction l with
  | nil =>
    intro kept
    refine ⟨kept.reverse, ?_⟩
    simp [cleanParts, h1, h2, h3]
  | cons q l ih =>
    intro kept
    rw [List.cons_append]
    unfold cleanParts
    split
    · exact ih _
    · split
      · split
        · exact ih _
        · split
          · exact ih _
          · exact ih _
      · exact ih _

theorem joinWith_last (c : Char) (i : List (List Char)) (p : List Char) : ∃ a, joinWith c (i ++ [p]) = a ++ p := by
  induction i with
  | nil => exact ⟨[], by simp [joinWith]⟩
  | cons x i ih =>
    obtain ⟨a, ha⟩ := ih
    have : ∃ y r, i ++ [p] = y :: r := by
      cases i with
      | nil => exact ⟨_, _, rfl⟩
      | cons y i => exact ⟨_, _, rfl⟩
    obtain ⟨y, r, hyr⟩ := this
    rw [List.cons_append, hyr, joinWith, ← hyr, ha]
    · exact ⟨x ++ c :: a, by simp⟩
    · simp

/-- A path that ends with an ordinary name still does when it is cleaned. -/
theorem cleanPath_suffix {s : String} {a w : List Char} (hs : s.toList = a ++ w) (hw : '/' ∉ w) (hlen : 3 ≤ w.length) :
    ∃ b, (cleanPath s).toList = b ++ w := by
  obtain ⟨i, l, _, h2⟩ := splitAll_suffix (a := a) hw
  have hlast : ∀ r, ∃ j, cleanParts r [] (splitAll '/' s.toList) = j ++ [l ++ w] := by
    intro r
    rw [hs, h2]
    have hl : 3 ≤ (l ++ w).length := by rw [List.length_append]; omega
    refine cleanParts_last r ?_ ?_ ?_ i [] <;> intro e <;> rw [e] at hl <;> simp at hl
  have hne : s.toList ≠ [] := by
    rw [hs]; intro e; have := congrArg List.length e; rw [List.length_append, List.length_nil] at this; omega
  unfold cleanPath
  simp only [hne, if_false]
  obtain ⟨j, hj⟩ := hlast (decide (s.toList.head? = some '/'))
  obtain ⟨b, hb⟩ := joinWith_last '/' j (l ++ w)
  rw [hj, hb]
  split
  · rw [String.toList_ofList]; exact ⟨'/' :: (b ++ l), by simp⟩
  · rw [if_neg (by simp), String.toList_ofList]; exact ⟨b ++ l, by simp⟩

theorem joinPath_suffix {dir name : String} {a w : List Char} (hs : name.toList = a ++ w) (hw : '/' ∉ w) (hlen : 3 ≤ w.length) :
    ∃ b, (joinPath dir name).toList = b ++ w := by
  have hne : name ≠ "" := by
    rintro rfl
    have := congrArg List.length hs; simp at this; omega
  unfold joinPath
  split
  · exact cleanPath_suffix (a := dir.toList ++ '/' :: a) (by simp [hs]) hw hlen
  · exact cleanPath_suffix hs hw hlen

theorem goFilePath_ne (m : Model) (outdir : String) (config : Value) {s t : String} (hs : s ∈ ["_model.go", "_server.go", "_client.go"])
    (ht : t ∈ ["_model.go", "_server.go", "_client.go"]) (hne : s ≠ t) : goFilePath m outdir config s ≠ goFilePath m outdir config t := by
  have key : ∀ s ∈ ["_model.go", "_server.go", "_client.go"], '/' ∉ s.toList ∧ 3 ≤ s.toList.length ∧
      ∀ t ∈ ["_model.go", "_server.go", "_client.go"], s ≠ t → s.toList.reverse.take 8 ≠ t.toList.reverse.take 8 ∧ 8 ≤ s.toList.length ∧ 8 ≤ t.toList.length := by
    decide +kernel
  obtain ⟨h1, h2, h3⟩ := key s hs
  obtain ⟨h4, h5, _⟩ := key t ht
  obtain ⟨h6, h7, h8⟩ := h3 t ht hne
  intro e
  obtain ⟨b, hb⟩ := joinPath_suffix (dir := goDir m outdir config) (name := uncapitalize (goConfOf m config).name ++ s)
    (a := (uncapitalize (goConfOf m config).name).toList) (by simp) h1 h2
  obtain ⟨d, hd⟩ := joinPath_suffix (dir := goDir m outdir config) (name := uncapitalize (goConfOf m config).name ++ t)
    (a := (uncapitalize (goConfOf m config).name).toList) (by simp) h4 h5
  change (goFilePath m outdir config s).toList = _ at hb
  change (goFilePath m outdir config t).toList = _ at hd
  rw [e, hd] at hb
  have := congrArg (fun l => (List.reverse l).take 8) hb
  simp only [List.reverse_append] at this
  rw [List.take_append_of_le_length (by simpa using h8), List.take_append_of_le_length (by simpa using h7)] at this
  exact h6 this.symm

theorem joinWith_append (c : Char) {a b : List (List Char)} (ha : a ≠ []) (hb : b ≠ []) :
    joinWith c (a ++ b) = joinWith c a ++ c :: joinWith c b := by
  induction a with
  | nil => contradiction
  | cons x a ih =>
    cases a with
    | nil =>
      cases b with
      | nil => contradiction
      | cons y b => simp [joinWith]
    | cons y a =>
      have := ih (by simp)
      simp only [List.cons_append] at this
      simp only [List.cons_append, joinWith, this, List.append_assoc]

theorem cleanParts_plain (rooted : Bool) {l : List (List Char)} (h : ∀ n ∈ l, Spec.PlainName n) :
    ∀ kept, cleanParts rooted kept l = kept.reverse ++ l := by
  induction l with
  | nil => intro kept; simp [cleanParts]
  | cons n l ih =>
    intro kept
    obtain ⟨h1, h2, h3, _⟩ := h n (by simp)
    unfold cleanParts
    rw [if_neg (by simp [h1, h2]), if_neg h3, ih fun n hn => h n (List.mem_cons_of_mem _ hn)]
    simp

theorem joinWith_head {l : List (List Char)} (hne : l ≠ []) (h : ∀ n ∈ l, Spec.PlainName n) :
    ∃ c r, joinWith '/' l = c :: r ∧ c ≠ '/' := by
  match l, hne with
  | [w], _ =>
    obtain ⟨h1, _, _, h4⟩ := h w (by simp)
    cases w with
    | nil => contradiction
    | cons c w => exact ⟨c, w, rfl, fun e => h4 (by simp [e])⟩
  | w :: x :: xs, _ =>
    obtain ⟨h1, _, _, h4⟩ := h w (by simp)
    cases w with
    | nil => contradiction
    | cons c w => exact ⟨c, w ++ '/' :: joinWith '/' (x :: xs), by simp [joinWith], fun e => h4 (by simp [e])⟩

/-- A path of plain names, from the root or not. -/
def plainPath (rooted : Bool) (l : List (List Char)) : List Char := (if rooted then ['/'] else []) ++ joinWith '/' l

theorem cleanPath_plain (rooted : Bool) {l : List (List Char)} (hne : l ≠ []) (h : ∀ n ∈ l, Spec.PlainName n) :
    cleanPath (String.ofList (plainPath rooted l)) = String.ofList (plainPath rooted l) := by
  obtain ⟨c, r, h1, h2⟩ := joinWith_head hne h
  have hs := splitAll_joinWith hne fun n hn => (h n hn).2.2.2
  unfold cleanPath plainPath
  rw [String.toList_ofList]
  cases rooted with
  | true =>
    have hsp : splitAll '/' ('/' :: joinWith '/' l) = [] :: l := by rw [splitAll, if_pos rfl, hs]
    simp only [if_true, List.cons_append, List.nil_append, List.head?_cons, decide_true, hsp, reduceCtorEq, if_false]
    unfold cleanParts
    rw [if_pos (by simp), cleanParts_plain _ h]
    simp
  | false =>
    simp only [Bool.false_eq_true, if_false, List.nil_append, hs, cleanParts_plain _ h]
    have e1 : ¬ joinWith '/' l = [] := by rw [h1]; simp
    have e2 : ¬ (joinWith '/' l).head? = some '/' := by rw [h1]; simpa using h2
    simp [e1, e2, hne]

theorem joinPath_plain (rooted : Bool) {l k : List (List Char)} (hl : l ≠ []) (hk : k ≠ []) (h1 : ∀ n ∈ l, Spec.PlainName n)
    (h2 : ∀ n ∈ k, Spec.PlainName n) :
    joinPath (String.ofList (plainPath rooted l)) (String.ofList (joinWith '/' k)) = String.ofList (plainPath rooted (l ++ k)) := by
  have hne : String.ofList (plainPath rooted l) ≠ "" := by
    intro e
    have e := congrArg String.toList e
    rw [String.toList_ofList] at e
    obtain ⟨c, r, h3, _⟩ := joinWith_head hl h1
    unfold plainPath at e
    rw [h3] at e
    simp at e
  unfold joinPath
  rw [if_pos hne]
  have : String.ofList (plainPath rooted l) ++ "/" ++ String.ofList (joinWith '/' k) = String.ofList (plainPath rooted (l ++ k)) := by
    apply String.toList_inj.1
    simp only [String.toList_append, String.toList_ofList, plainPath, joinWith_append '/' hl hk]
    simp
  rw [this]
  exact cleanPath_plain rooted (by simp [hl]) fun n hn => (List.mem_append.1 hn).elim (h1 n) (h2 n)

/-! ### The files after a run -/

/-- A file that `WriteFile` leaves alone. -/
def Gen.keeps (os : OS) (g : Gen) (path : String) : Prop :=
  asBool (dataGet g.config ["force-overwrite"]) = false ∧ g.fileExists os path = true

theorem writeFile_keeps {os : OS} {g : Gen} {path : String} (h : g.keeps os path) (c : String) : g.writeFile os path c = g := by
  unfold Gen.writeFile; exact if_pos h

theorem writeFile_fails {os : OS} {g : Gen} {path : String} (h : ¬ g.keeps os path) (hc : os.createFails path = true) (c : String) :
    g.writeFile os path c = { g with err := some "create" } := by
  unfold Gen.writeFile
  unfold Gen.keeps at h
  rw [if_neg h, if_pos hc]

theorem writeFile_writes {os : OS} {g : Gen} {path : String} (h : ¬ g.keeps os path) (hc : os.createFails path = false) (c : String) :
    g.writeFile os path c = { g with files := mset g.files path (os.written path c), err := os.writeErr path c } := by
  unfold Gen.writeFile
  unfold Gen.keeps at h
  rw [if_neg h, if_neg (by simp [hc])]

theorem writeFile_config (os : OS) (g : Gen) (path c : String) : (g.writeFile os path c).config = g.config := by
  unfold Gen.writeFile; split
  · rfl
  · split <;> rfl

theorem writeFile_other (os : OS) (g : Gen) (path c : String) {p : String} (h : p ≠ path) :
    mget (g.writeFile os path c).files p = mget g.files p := by
  unfold Gen.writeFile; split
  · rfl
  · split
    · rfl
    · exact mget_mset_other _ _ _ _ h

theorem writeFile_keeps_iff (os : OS) (g : Gen) (path c : String) {p : String} (h : p ≠ path) :
    (g.writeFile os path c).keeps os p ↔ g.keeps os p := by
  unfold Gen.keeps Gen.fileExists
  rw [writeFile_config, writeFile_other os g path c h]

section
variable (os : OS) (file : String → String)

theorem exportParts_err {g : Gen} {e : String} (h : g.err = some e) (parts : List (String × Out String)) :
    exportParts os file parts g = ⟨.err e, g.files⟩ := by
  induction parts with
  | nil => simp [exportParts, h]
  | cons p parts ih => unfold exportParts; simp only [h]; exact ih

theorem exportParts_untouched (parts : List (String × Out String)) (g : Gen) {path : String} (h : ∀ p ∈ parts, path ≠ file p.1) :
    mget (exportParts os file parts g).files path = mget g.files path := by
  induction parts generalizing g with
  | nil => unfold exportParts; split <;> rfl
  | cons p parts ih =>
    have ih := fun g => ih g fun q hq => h q (List.mem_cons_of_mem _ hq)
    obtain ⟨s, t⟩ := p
    unfold exportParts
    split
    · exact ih g
    · split
      · rfl
      · rw [ih]
      · rename_i t
        rw [ih, writeFile_other _ _ _ _ (h (s, .ok t) (by simp))]

theorem exportParts_keeps (parts : List (String × Out String)) (g : Gen) {path : String} (h : g.keeps os path) :
    mget (exportParts os file parts g).files path = mget g.files path := by
  induction parts generalizing g with
  | nil => unfold exportParts; split <;> rfl
  | cons p parts ih =>
    obtain ⟨s, t⟩ := p
    unfold exportParts
    split
    · exact ih g h
    · split
      · rfl
      · exact ih _ h
      · rename_i t
        by_cases hp : path = file s
        · subst hp
          rw [writeFile_keeps h]
          exact ih g h
        · rw [ih _ ((writeFile_keeps_iff _ _ _ _ hp).2 h), writeFile_other _ _ _ _ hp]

theorem exportParts_changed (parts : List (String × Out String)) (g : Gen) {path : String} :
    mget (exportParts os file parts g).files path = mget g.files path ∨
      ∃ s t, (s, Out.ok t) ∈ parts ∧ path = file s ∧ os.createFails path = false ∧
        mget (exportParts os file parts g).files path = some (os.written path t) := by
  induction parts generalizing g with
  | nil => unfold exportParts; split <;> exact .inl rfl
  | cons p parts ih =>
    obtain ⟨s, t⟩ := p
    unfold exportParts
    split
    · rcases ih g with h | ⟨s', t', h1, h2⟩
      · exact .inl h
      · exact .inr ⟨s', t', List.mem_cons_of_mem _ h1, h2⟩
    · split
      · exact .inl rfl
      · rename_i e
        rcases ih { g with err := some e } with h | ⟨s', t', h1, h2⟩
        · exact .inl h
        · exact .inr ⟨s', t', List.mem_cons_of_mem _ h1, h2⟩
      · rename_i t
        rcases ih (g.writeFile os (file s) t) with h | ⟨s', t', h1, h2⟩
        · rw [h]
          by_cases hp : path = file s
          · subst hp
            unfold Gen.writeFile
            split
            · exact .inl rfl
            · split
              · exact .inl rfl
              · rename_i hc
                refine .inr ⟨s, t, by simp, rfl, by simpa using hc, mget_mset_same _ _ _⟩
          · exact .inl (writeFile_other _ _ _ _ hp)
        · exact .inr ⟨s', t', List.mem_cons_of_mem _ h1, h2⟩

theorem exportParts_ok_iff (parts : List (String × Out String)) (hd : (parts.map fun p => file p.1).Nodup) (g : Gen) (he : g.err = none) :
    (exportParts os file parts g).outcome = .ok () ↔ ∀ p ∈ parts, ∃ t, p.2 = .ok t ∧
      (g.keeps os (file p.1) ∨ os.createFails (file p.1) = false ∧ os.writeErr (file p.1) t = none) := by
  induction parts generalizing g with
  | nil => simp [exportParts, he]
  | cons p parts ih =>
    obtain ⟨s, t⟩ := p
    rw [List.map_cons, List.nodup_cons] at hd
    have ih := ih hd.2
    unfold exportParts
    simp only [he]
    rw [List.forall_mem_cons]
    cases t with
    | panic e => simp
    | err e =>
      simp only [reduceCtorEq, false_and, exists_false, false_and, iff_false]
      rw [exportParts_err os file (e := e) rfl]
      simp
    | ok t =>
      simp only [Out.ok.injEq, exists_eq_left']
      by_cases hk : g.keeps os (file s)
      · rw [writeFile_keeps hk, ih g he]
        simp [hk]
      · have hrest : ∀ p ∈ parts, file p.1 ≠ file s := fun p hp e => hd.1 (List.mem_map.2 ⟨p, hp, e⟩)
        by_cases hc : os.createFails (file s) = true
        · rw [writeFile_fails hk hc, exportParts_err os file rfl]
          simp [hk, hc]
        · have hw := writeFile_writes hk (by simpa using hc) t
          cases hwe : os.writeErr (file s) t with
          | some e =>
            rw [hw, exportParts_err os file hwe]
            simp [hk]
          | none =>
            rw [ih _ (by rw [hw]; exact hwe)]
            have hc' : os.createFails (file s) = false := by simpa using hc
            simp only [hc', and_self, or_true, true_and]
            constructor
            · intro h p hp
              obtain ⟨t', h1, h2⟩ := h p hp
              exact ⟨t', h1, h2.imp_left (writeFile_keeps_iff _ _ _ _ (hrest p hp)).1⟩
            · intro h p hp
              obtain ⟨t', h1, h2⟩ := h p hp
              exact ⟨t', h1, h2.imp_left (writeFile_keeps_iff _ _ _ _ (hrest p hp)).2⟩

/-- After a run without an error every file is there: as before if it is kept, written otherwise. -/
theorem exportParts_files (parts : List (String × Out String)) (hd : (parts.map fun p => file p.1).Nodup) (g : Gen) (he : g.err = none)
    (h : (exportParts os file parts g).outcome = .ok ()) {s t : String} (hp : (s, Out.ok t) ∈ parts) (hk : ¬ g.keeps os (file s)) :
    mget (exportParts os file parts g).files (file s) = some (os.written (file s) t) := by
  induction parts generalizing g with
  | nil => cases hp
  | cons p parts ih =>
    have hall := (exportParts_ok_iff os file (p :: parts) hd g he).1 h
    obtain ⟨s', t'⟩ := p
    rw [List.map_cons, List.nodup_cons] at hd
    obtain ⟨t'', ht'', h2⟩ := hall (s', t') (by simp)
    simp only at ht''
    subst ht''
    unfold exportParts at h ⊢
    simp only [he] at h ⊢
    rcases List.mem_cons.1 hp with hp | hp
    · cases hp
      have h3 := h2.resolve_left hk
      rw [exportParts_untouched os file parts _ (fun q hq e => hd.1 (List.mem_map.2 ⟨q, hq, e.symm⟩))]
      rw [writeFile_writes hk h3.1]
      exact mget_mset_same _ _ _
    · have hne : file s ≠ file s' := fun e => hd.1 (List.mem_map.2 ⟨_, hp, e⟩)
      refine ih hd.2 _ ?_ h hp fun hk' => hk ((writeFile_keeps_iff _ _ _ _ hne).1 hk')
      rcases h2 with h2 | h2
      · rw [writeFile_keeps h2]; exact he
      · by_cases hk2 : g.keeps os (file s')
        · rw [writeFile_keeps hk2]; exact he
        · rw [writeFile_writes hk2 h2.1]
          exact h2.2

theorem exportParts_panic (parts : List (String × Out String)) (hp : ∀ p ∈ parts.tail, ∀ e, p.2 ≠ .panic e) (g : Gen) (e : String) :
    (exportParts os file parts g).outcome = .panic e ↔ g.err = none ∧ ∃ s r, parts = (s, .panic e) :: r := by
  have hno : ∀ (parts : List (String × Out String)) (g : Gen), (∀ p ∈ parts, ∀ e, p.2 ≠ .panic e) → (exportParts os file parts g).outcome ≠ .panic e := by
    intro parts
    induction parts with
    | nil => intro g _; unfold exportParts; split <;> simp
    | cons p parts ih =>
      intro g h
      obtain ⟨s, t⟩ := p
      unfold exportParts
      split
      · exact ih g fun q hq => h q (List.mem_cons_of_mem _ hq)
      · split
        · rename_i e'
          exact absurd rfl (h (s, .panic e') (by simp) e')
        · exact ih _ fun q hq => h q (List.mem_cons_of_mem _ hq)
        · exact ih _ fun q hq => h q (List.mem_cons_of_mem _ hq)
  cases parts with
  | nil => simp [hno [] g (by simp)]
  | cons p parts =>
    obtain ⟨s, t⟩ := p
    cases hg : g.err with
    | some e' => rw [exportParts_err os file hg]; simp
    | none =>
      unfold exportParts
      simp only [hg, true_and]
      cases t with
      | panic e' =>
        simp only [Out.panic.injEq, List.cons.injEq, Prod.mk.injEq]
        constructor
        · rintro rfl; exact ⟨s, parts, ⟨rfl, rfl⟩, rfl⟩
        · rintro ⟨_, _, ⟨_, h⟩, _⟩; exact h
      | err e' => simp [hno parts _ hp]
      | ok t => simp [hno parts _ hp]

theorem exportParts_panic_files {parts : List (String × Out String)} (hp : ∀ p ∈ parts.tail, ∀ e, p.2 ≠ .panic e) {g : Gen} {e : String}
    (h : (exportParts os file parts g).outcome = .panic e) : (exportParts os file parts g).files = g.files := by
  obtain ⟨h1, s, r, rfl⟩ := (exportParts_panic os file parts hp g e).1 h
  simp [exportParts, h1]
end

end Sadl
