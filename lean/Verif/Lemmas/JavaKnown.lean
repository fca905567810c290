import Verif.Lemmas.JavaImports
/-
Whatever is generated, only known classes are imported.
-/
namespace Sadl
open Sadl.Spec

theorem notesKnown_nil : NotesKnown [] := fun p hp => by cases hp

/-- The notes of a result are known. -/
def ResultKnown (o : Out JType) : Prop := ∀ t, o = .ok t → NotesKnown t.notes

theorem ResultKnown.ite {c : Prop} [Decidable c] {a b : Out JType} (ha : ResultKnown a) (hb : ResultKnown b) : ResultKnown (if c then a else b) := by
  split
  · exact ha
  · exact hb
theorem ResultKnown.ok {t : JType} (h : NotesKnown t.notes) : ResultKnown (.ok t) := fun _ ht => by cases ht; exact h
theorem ResultKnown.panic {e : String} : ResultKnown (.panic e) := fun _ ht => by cases ht
theorem ResultKnown.bind {o : Out JType} {k : JType → Out JType} (h : ResultKnown o) (hk : ∀ t, NotesKnown t.notes → ResultKnown (k t)) :
    ResultKnown (o.bind k) := fun t ht => by
  obtain ⟨x, h1, h2⟩ := gbind_ok.1 ht
  exact hk x (h x h1) t h2

theorem javaTypeStep_known (m : Model) (conf : JavaConf) (rec : Option TypeSpec → String → Bool → Out JType)
    (hr : ∀ ts n r, ResultKnown (rec ts n r)) (ts : Option TypeSpec) (n : String) (r : Bool) : ResultKnown (javaTypeStep m conf rec ts n r) := by
  unfold javaTypeStep
  have k0 := (required_fine r).2.2
  have ks := (javaStringAnnos_fine ts).2.2
  refine .ite (.ok notesKnown_nil) ?_
  extract_lets annos notes name notesL notesM
  clear_value name
  have k0 : NotesKnown notes := k0
  have kl : NotesKnown notesL := k0.append (notesKnown_of (by decide))
  have km : NotesKnown notesM := k0.append (notesKnown_of (by decide))
  have ki := k0.append (b := javaInstantNotes) (notesKnown_of (by decide))
  have ku := k0.append (b := [.pack "java.util.UUID"]) (notesKnown_of (by decide))
  have kd := k0.append (b := [.pack "java.math.BigDecimal"]) (notesKnown_of (by decide))
  have kt := k0.append (b := [.timestamp]) (notesKnown_of (by decide))
  refine .ite (.ok (k0.append ks)) (.ite (.ok k0) (.ite (.ok kd) (.ite (.ite (.ok ki) (.ok kt)) (.ite ?_ (.ite ?_ (.ite (.ok ku) (.ite (.ok k0) ?_)))))))
  · cases ts with
    | none => exact .ok kl
    | some ts =>
      simp only
      cases m.findType ts.items with
      | none => exact .panic
      | some td => exact .bind (hr _ _ _) fun t ht => .ok (kl.append ht)
  · cases ts with
    | none => exact .ok km
    | some ts =>
      simp only
      cases m.findType ts.keys with
      | none => exact .panic
      | some td =>
        refine .bind (hr _ _ _) fun t ht => ?_
        cases m.findType ts.items with
        | none => exact .panic
        | some td => exact .bind (hr _ _ _) fun u hu => .ok ((km.append ht).append hu)
  · cases m.findType name with
    | none => exact .ok k0
    | some td =>
      exact .ite (.bind (hr _ _ _) fun t ht => .ok (k0.append ht)) (.ite (.bind (hr _ _ _) fun t ht => .ok (k0.append ht))
        (.ite (.ok k0) (.ite (.ok ku) (.ite (.ok kd) (.ite (.ite (.ok ki) (.ok kt)) (.ok k0))))))

theorem javaType_known {m : Model} {conf : JavaConf} {ts : Option TypeSpec} {n : String} {r : Bool} {t : JType}
    (h : javaType m conf ts n r = .ok t) : NotesKnown t.notes := by
  have key : ∀ k ts n r, ResultKnown (javaTypeN m conf k ts n r) := by
    intro k
    induction k with
    | zero => exact fun _ _ _ => .panic
    | succ k ih => exact fun ts n r => javaTypeStep_known m conf _ ih ts n r
  exact key _ _ _ _ _ h

section
variable {m : Model} {conf : JavaConf}

theorem javaMember_known {cls : String} {f : StructFieldDef} {x : JMember} (h : javaMember m conf cls f = .ok x) : NotesKnown x.notes := by
  unfold javaMember at h
  split at h
  · cases h
  · obtain ⟨t, h1, h2⟩ := gbind_ok.1 h
    simp only at h2
    split at h2
    · obtain ⟨tn, _, h3⟩ := gbind_ok.1 h2
      split at h3
      · cases h3
      · cases h3; exact javaType_known h1
    · cases h2; exact javaType_known h1

theorem javaMembers_known {cls : String} {fs : List StructFieldDef} {xs : List JMember} (h : javaMembers m conf cls fs = .ok xs) :
    ∀ x ∈ xs, NotesKnown x.notes := by
  induction fs generalizing xs with
  | nil => cases h; simp
  | cons f fs ih =>
    obtain ⟨x, h1, h2⟩ := gbind_ok.1 h
    obtain ⟨ys, h3, h4⟩ := gbind_ok.1 h2
    cases h4
    exact List.forall_mem_cons.2 ⟨javaMember_known h1, ih h3⟩

theorem javaVariants_known {cls : String} {vs : List UnionVariantDef} {xs : List JMember} (h : javaVariants m conf cls vs = .ok xs) :
    ∀ x ∈ xs, NotesKnown x.notes := by
  induction vs generalizing xs with
  | nil => cases h; simp
  | cons f fs ih =>
    obtain ⟨x, h1, h2⟩ := gbind_ok.1 h
    obtain ⟨ys, h3, h4⟩ := gbind_ok.1 h2
    cases h4
    refine List.forall_mem_cons.2 ⟨?_, ih h3⟩
    unfold javaVariant at h1
    obtain ⟨t, h5, h6⟩ := gbind_ok.1 h1
    simp only at h6
    split at h6
    · obtain ⟨tn, _, h7⟩ := gbind_ok.1 h6
      split at h7
      · cases h7
      · cases h7; exact javaType_known h5
    · cases h6; exact javaType_known h5

theorem javaNested_known {ms : List JMember} {inner : List (Out (JavaClass × List JNote))} {ns : List (JavaClass × List JNote)}
    (h : javaAll (javaNested conf ms inner) = .ok ns) (hi : ∀ d, .ok d ∈ inner → NotesKnown d.2) : ∀ d ∈ ns, NotesKnown d.2 := by
  rw [javaAll_ok] at h
  intro d hd
  obtain ⟨o, ho, rfl⟩ := forall₂_mem_right h hd
  exact hi d (mem_javaNested conf ho)

theorem pretty_known : NotesKnown (if conf.pretty = true then [.util] else []) := by split <;> exact notesKnown_of (by decide)

theorem javaClassOf_known (n : Nat) : ∀ (exceptions : List String) (top : Bool) (cls : String) (fields : List StructFieldDef)
    (c : JavaClass × List JNote), sizeOf fields ≤ n →
    javaClassOf m conf exceptions top cls fields (javaInners m conf fields) = .ok c → NotesKnown c.2 := by
  induction n with
  | zero => intro _ _ _ fields _ h; cases fields <;> simp at h
  | succ n ih =>
    intro exceptions top cls fields c hn h
    unfold javaClassOf at h
    extract_lets thr lom at h
    obtain ⟨ms, h1, h2⟩ := gbind_ok.1 h
    extract_lets notes fs at h2
    have k1 : NotesKnown notes := (javaClassNotes_known conf fields thr lom top).append (notesKnown_flatMap (javaMembers_known h1))
    split at h2
    · cases h2; exact k1
    · split at h2
      · cases h2
      · obtain ⟨ns, h3, h4⟩ := gbind_ok.1 h2
        cases h4
        refine (k1.append pretty_known).append (notesKnown_flatMap (javaNested_known h3 ?_))
        intro d hd
        rw [javaInners_eq] at hd
        obtain ⟨f, hf, he⟩ := List.mem_map.1 hd
        obtain ⟨name, _, _, _, _, ts⟩ := f
        cases ts
        rw [javaInner.eq_def] at he
        refine ih _ _ _ _ _ ?_ he
        have := List.sizeOf_lt_of_mem hf
        simp at this
        omega

theorem javaInner_known {cls : String} {ts : TypeSpec} {c : JavaClass × List JNote} (h : javaInner m conf cls ts = .ok c) : NotesKnown c.2 := by
  cases ts
  rw [javaInner.eq_def] at h
  exact javaClassOf_known _ _ _ _ _ _ le_rfl h

theorem javaBody_known {exceptions : List String} {cls : String} {ts : TypeSpec} {b : JavaBody} {ns : List JNote}
    (h : javaBody m conf exceptions cls ts = some (.ok (b, ns))) : NotesKnown ns := by
  unfold javaBody at h
  split at h
  · obtain ⟨c, h1, h2⟩ := gbind_ok.1 (Option.some.inj h)
    cases h2
    exact javaClassOf_known _ _ _ _ _ _ le_rfl h1
  split at h
  · have h := Option.some.inj h
    unfold javaUnit at h
    obtain ⟨v, h1, h2⟩ := gbind_ok.1 h
    obtain ⟨u, h3, h4⟩ := gbind_ok.1 h2
    split at h4
    · cases h4
    · cases h4
      exact (NotesKnown.append (notesKnown_of (by decide)) (javaType_known h1)).append (javaType_known h3)
  split at h
  · cases h; exact notesKnown_of (by decide)
  split at h
  · have h := Option.some.inj h
    unfold javaUnion at h
    obtain ⟨ms, h1, h2⟩ := gbind_ok.1 h
    split at h2
    · cases h2
    · obtain ⟨ds, h3, h4⟩ := gbind_ok.1 h2
      cases h4
      refine ((NotesKnown.append ?_ (notesKnown_flatMap (javaVariants_known h1))).append pretty_known).append (notesKnown_flatMap (javaNested_known h3 ?_))
      · unfold javaUnionNotes
        refine NotesKnown.append (notesKnown_of (by decide)) ?_
        split <;> exact notesKnown_of (by decide)
      · intro d hd
        obtain ⟨v, _, he⟩ := List.mem_map.1 hd
        exact javaInner_known he
  · cases h

/-- All imports of all files are known. -/
def FilesKnown (fs : List JavaFile) : Prop := ∀ f ∈ fs, ∀ i c b, f.content = .pojo i c b → ∀ p ∈ i, p ∈ JavaImportable

theorem filesKnown_nil : FilesKnown [] := fun f hf => by cases hf
theorem FilesKnown.append {a b : List JavaFile} (ha : FilesKnown a) (hb : FilesKnown b) : FilesKnown (a ++ b) := fun f hf =>
  (List.mem_append.1 hf).elim (ha f) (hb f)

theorem filesKnown_file {o : Out JavaFile} (h : ∀ f, o = .ok f → ∀ i c b, f.content ≠ .pojo i c b) : FilesKnown (stepFiles [.file o]) := by
  intro f hf i c b hc
  cases o with
  | ok g =>
    rcases List.mem_cons.1 hf with rfl | hf
    · exact absurd hc (h _ rfl i c b)
    · cases hf
  | err e => cases hf
  | panic e => cases hf

theorem javaPojo_known {exceptions : List String} {ts : TypeSpec} {cls comment : String} {notes : List JNote} (hn : NotesKnown notes) :
    FilesKnown (stepFiles (javaPojo m conf exceptions ts cls comment notes).1) ∧ NotesKnown (javaPojo m conf exceptions ts cls comment notes).2 := by
  unfold javaPojo
  split
  · exact ⟨filesKnown_nil, hn⟩
  · next b ns h =>
    have k := hn.append (javaBody_known h)
    refine ⟨?_, k⟩
    intro f hf i c b hc p hp
    rw [stepFiles_ok] at hf
    rcases List.mem_cons.1 hf with rfl | hf
    · cases hc
      exact k p (mem_javaImports.1 hp)
    · cases hf
  · exact ⟨filesKnown_nil, hn⟩
  · exact ⟨filesKnown_nil, hn⟩

theorem javaTypePojos_known {exceptions : List String} {tds : List TypeDef} {notes : List JNote} (hn : NotesKnown notes) :
    FilesKnown (stepFiles (javaTypePojos m conf exceptions tds notes).1) ∧ NotesKnown (javaTypePojos m conf exceptions tds notes).2 := by
  induction tds generalizing notes with
  | nil => exact ⟨filesKnown_nil, hn⟩
  | cons td tds ih =>
    have h1 := javaPojo_known (m := m) (conf := conf) (exceptions := exceptions) (ts := td.ts) (cls := capitalize td.name) (comment := td.comment) hn
    have h2 := ih h1.2
    unfold javaTypePojos
    simp only
    rw [List.cons_append, stepFiles_check, stepFiles_append]
    exact ⟨h1.1.append h2.1, h2.2⟩

theorem javaActionPojos_known {hs : List HttpDef} {notes : List JNote} (hn : NotesKnown notes) :
    FilesKnown (stepFiles (javaActionPojos m conf hs notes).1) ∧ NotesKnown (javaActionPojos m conf hs notes).2 := by
  induction hs generalizing notes with
  | nil => exact ⟨filesKnown_nil, hn⟩
  | cons h hs ih =>
    unfold javaActionPojos
    extract_lets named req res ent r
    have h1 : FilesKnown (stepFiles req.1) ∧ NotesKnown req.2 := by
      unfold req
      split
      · exact javaPojo_known hn
      · exact ⟨filesKnown_nil, hn⟩
      · exact ⟨filesKnown_nil, hn⟩
    have h2 : FilesKnown (stepFiles res.1) ∧ NotesKnown res.2 := by
      unfold res
      split
      · exact javaPojo_known h1.2
      · exact ⟨filesKnown_nil, h1.2⟩
      · exact ⟨filesKnown_nil, h1.2⟩
      · exact ⟨filesKnown_nil, h1.2⟩
    have h3 : NotesKnown ent := by
      unfold ent
      split
      · next he =>
        refine (h2.2.append ?_).append (by split <;> exact notesKnown_of (by decide))
        unfold javaEntity at he
        split at he
        · cases he
        · split at he
          · obtain ⟨t, h4, h5⟩ := gbind_ok.1 he
            cases h5
            exact javaType_known h4
          · cases he; exact notesKnown_nil
      · exact h2.2
    have h4 := ih h3
    rw [stepFiles_append, stepFiles_append, stepFiles_check]
    exact ⟨(h1.1.append h2.1).append h4.1, h4.2⟩

theorem javaExceptions_noted {xs : List HttpExceptionSpec} {r : List String × List JNote} (h : javaExceptions m conf xs = .ok r) : NotesKnown r.2 := by
  induction xs generalizing r with
  | nil => cases h; exact notesKnown_nil
  | cons x xs ih =>
    obtain ⟨t, h1, h2⟩ := gbind_ok.1 h
    obtain ⟨r', h3, h4⟩ := gbind_ok.1 h2
    cases h4
    exact (javaType_known h1).append (ih h3)

theorem javaModel_known : FilesKnown (stepFiles (javaModel m conf).1.flatten) := by
  unfold javaModel
  split
  · next exceptions notes he =>
    have h0 : NotesKnown notes := by
      split at he
      · cases he; exact notesKnown_nil
      · exact javaExceptions_noted he
    have h1 := javaTypePojos_known (m := m) (conf := conf) (exceptions := exceptions) (tds := m.schema.types) h0
    simp only [List.flatten_cons, List.flatten_nil, List.append_nil, stepFiles_append]
    refine h1.1.append (FilesKnown.append ?_ ?_)
    · unfold javaInterface
      split
      · exact filesKnown_nil
      · have h2 := javaActionPojos_known (m := m) (conf := conf) (hs := m.schema.http) h1.2
        simp only
        rw [← List.singleton_append, stepFiles_append]
        refine FilesKnown.append (filesKnown_file fun f hf => ?_) h2.1
        obtain ⟨ms, _, h3⟩ := gbind_ok.1 hf
        cases h3
        intro _ _ _ h
        cases h
    · unfold javaSupport
      rw [stepFiles_append, stepFiles_append]
      refine (FilesKnown.append ?_ ?_).append ?_ <;> split
      all_goals first
        | exact filesKnown_nil
        | exact filesKnown_file fun f hf => by cases hf; intro _ _ _ h; cases h
  · exact filesKnown_nil
  · exact filesKnown_nil

end
end Sadl
