import Verif.Lemmas.Serve
/-
C104, C105, C106: the Swagger server.
-/
namespace Sadl.Props
open Sadl Sadl.Spec Sadl.Serve

/-- C104: every request is answered as it is to be answered. -/
theorem C104_answers (modelName : List Char) (archive : List Entry) (path : List Char) :
    PathAnswered modelName archive path (serve modelName archive path) := by
  have key : ∀ p, (∃ f, (distFiles archive).lookup p = some f ∧ DistDir archive (distPrefix archive) ∧ EntryOf archive (distPrefix archive ++ p) f) ∨
      ((distFiles archive).lookup p = none ∧ ∀ dir f, DistDir archive dir → ¬ EntryOf archive (dir ++ p) f) := by
    intro p
    obtain ⟨h1, h2⟩ := lookup_iff archive p
    cases hl : (distFiles archive).lookup p with
    | some f =>
      have hf := h1 f hl
      rcases distPrefix_cases archive with ⟨h3, _⟩ | ⟨_, h4⟩
      · exact .inl ⟨f, rfl, h3, hf⟩
      · obtain ⟨b, a, h5, h6, _⟩ := hf
        have := h4 f (by rw [h5]; simp)
        rw [h6] at this
        exact absurd (List.isPrefixOf_iff_prefix.2 ⟨p, rfl⟩) (by rw [this]; simp)
    | none =>
      refine .inr ⟨rfl, fun dir f hd hf => ?_⟩
      rcases distPrefix_cases archive with ⟨_, h3⟩ | ⟨h4, _⟩
      · rw [h3 dir hd] at hf
        exact h2 hl f hf
      · exact h4 dir hd
  have mem : ∀ {n f}, EntryOf archive n f → f ∈ archive := by
    rintro n f ⟨b, a, h, _⟩; rw [h]; simp
  have ne : petstoreUrl ≠ [] := by decide
  have index : ∀ p, IsIndex p → PathAnswered modelName archive p (serveFile (apiName modelName) (distFiles archive) "/index.html".toList) := by
    intro p hp
    unfold serveFile
    rcases key "/index.html".toList with ⟨f, h1, h2, h3⟩ | ⟨h1, h2⟩
    · rw [h1]
      simp only
      cases hc : f.content with
      | none => exact .broken h2 (mem h3) hc
      | some data =>
        simp only [if_true]
        exact .index hp h2 h3 hc (replaced_all ne _ data le_rfl)
    · rw [h1]
      exact .missingIndex hp h2
  unfold serve handle
  split_ifs with h1 h2
  · exact index path (.inl h1)
  · exact .document (List.isSuffixOf_iff_suffix.1 h2)
  · rw [List.isSuffixOf_iff_suffix] at h2
    by_cases h3 : path = "/index.html".toList
    · rw [h3]; exact index _ (.inr rfl)
    · have hi : ¬ IsIndex path := by rintro (h | h) <;> contradiction
      unfold serveFile
      rcases key path with ⟨f, e1, e2, e3⟩ | ⟨e1, e2⟩
      · rw [e1]
        simp only
        cases hc : f.content with
        | none => exact .broken e2 (mem e3) hc
        | some data =>
          simp only [h3, if_false]
          exact .file h2 hi e2 e3 hc
      · rw [e1]
        exact .missing h2 hi e2

/-- C104: nothing outside of the directory is served; the paths of requests begin with `/`. -/
theorem C104_inside (modelName : List Char) (archive : List Entry) (path text : List Char)
    (h : serve modelName archive ('/' :: path) = .content text) :
    ∃ dir, DistDir archive dir ∧ ∃ f ∈ archive, dir ++ ['/'] <+: f.name ∧
      ∃ data, f.content = some data ∧ (text = data ∨ Replaced petstoreUrl (apiName modelName) data text) := by
  have key := C104_answers modelName archive ('/' :: path)
  rw [h] at key
  generalize hp : ('/' :: path : List Char) = p at key
  cases key with
  | @index dir data _ f _ hd he hc hr =>
    obtain ⟨b, a, e1, e2, _⟩ := he
    exact ⟨dir, hd, f, by rw [e1]; simp, by rw [e2]; exact ⟨"index.html".toList, by simp⟩, data, hc, .inr hr⟩
  | @file dir _ f _ _ hd he hc =>
    obtain ⟨b, a, e1, e2, _⟩ := he
    exact ⟨dir, hd, f, by rw [e1]; simp, by rw [e2, ← hp]; exact ⟨path, by simp⟩, text, hc, .inl rfl⟩

/-- An archive with a directory `dist` and something that begins alike. -/
def swaggerArchive : List Entry :=
  [{ name := "ui/README".toList, content := some "read me".toList }, { name := "ui/dist/".toList, content := some [] },
   { name := "ui/dist/index.html".toList, content := some "<https://petstore.swagger.io/v2/swagger.json>".toList },
   { name := "ui/dist/app.js".toList, content := some "1;".toList }, { name := "ui/dist2/app.js".toList, content := some "2;".toList },
   { name := "ui/dist/package.json".toList, content := some "{}".toList }]

def answerIs (a : Answer) (s : List Char) : Bool := match a with | .content t => decide (t = s) | _ => false

/-- Answers for that archive. -/
theorem C104_example : answerIs (serve "pets".toList swaggerArchive "/".toList) "<pets.json>".toList = true ∧
    answerIs (serve "pets".toList swaggerArchive "/app.js".toList) "1;".toList = true ∧
    serve "pets".toList swaggerArchive "/README".toList = .notFound ∧
    serve "pets".toList swaggerArchive "/package.json".toList = .document := by
  refine ⟨by decide +kernel, by decide +kernel, ?_, ?_⟩
  · rfl
  · rfl

/-- C105: a request whose copying is not interleaved with steps of other requests is answered with the whole document, whatever the
others did before it and do after it, and in whatever pieces the document is read. -/
theorem C105_undisturbed_partial {α : Type} (doc : List α) (i : Nat) (before own after : List (Nat × Nat)) :
    let s1 := (Server.run { doc := doc } before)
    let s2 := s1.run own
    ((s1.reqs i).phase = .start ∨ ∃ n, (s1.reqs i).phase = .sized n) → (∀ x ∈ own, x.1 = i) →
    (s2.reqs i).phase = .done → ((s2.run after).reqs i).out = doc := by
  intro s1 s2 hp ho hd
  have h1 : ReqOk doc (s1.reqs i) := run_ok { doc := doc } before (fun j => ⟨by simp, rfl⟩) i
  have hdoc : s1.doc = doc := run_doc _ before
  have h2 : Alone s1 i := by
    unfold ReqOk at h1
    unfold Alone
    rcases hp with hp | ⟨n, hp⟩
    · rw [hp] at h1 ⊢; exact h1.2
    · rw [hp] at h1 ⊢; rw [hdoc]; exact h1.2
  have h3 := (run_alone s1 i own ho h2).1
  unfold Alone at h3
  rw [show ((s1.run own).reqs i).phase = .done from hd] at h3
  rw [run_done _ _ hd, h3, run_doc, hdoc]

/-- C105: requests that are served one after the other, each with enough steps, are all answered with the whole document. -/
theorem C105_sequential_partial {α : Type} (doc : List α) (requests : List (Nat × List Nat)) (hn : (requests.map Prod.fst).Nodup)
    (hl : ∀ r ∈ requests, doc.length + 3 ≤ r.2.length) :
    ∀ r ∈ requests, let s := Server.run { doc := doc } (requests.flatMap fun r => r.2.map fun k => (r.1, k))
      (s.reqs r.1).phase = .done ∧ (s.reqs r.1).out = doc := by
  have gen : ∀ (requests : List (Nat × List Nat)) (s : Server α), s.doc = doc → (requests.map Prod.fst).Nodup →
      (∀ r ∈ requests, doc.length + 3 ≤ r.2.length) → (∀ r ∈ requests, (s.reqs r.1).phase = .start ∧ (s.reqs r.1).out = []) →
      ∀ r ∈ requests, let s' := s.run (requests.flatMap fun r => r.2.map fun k => (r.1, k))
        (s'.reqs r.1).phase = .done ∧ (s'.reqs r.1).out = doc := by
    intro requests
    induction requests with
    | nil => intro s _ _ _ _ r hr; cases hr
    | cons q rest ih =>
      intro s hdoc hn hl hs
      rw [List.map_cons, List.nodup_cons] at hn
      have hq := hs q List.mem_cons_self
      have ha : Alone s q.1 := by unfold Alone; rw [hq.1]; exact hq.2
      obtain ⟨h1, h2⟩ := run_alone s q.1 (q.2.map fun k => (q.1, k)) (by simp) ha
      have hd : ((s.run (q.2.map fun k => (q.1, k))).reqs q.1).phase = .done := by
        have h3 := hl q List.mem_cons_self
        have h4 : stepsLeft s.doc (s.reqs q.1) = doc.length + 3 := by unfold stepsLeft; rw [hq.1, hdoc]
        rw [h4, List.length_map] at h2
        unfold stepsLeft at h2
        revert h2
        split <;> intro h2
        · rw [hdoc] at h2; omega
        · rw [hdoc] at h2; omega
        · omega
        · assumption
      unfold Alone at h1
      rw [hd] at h1
      have hdoc' : (s.run (q.2.map fun k => (q.1, k))).doc = doc := (run_doc _ _).trans hdoc
      intro r hr
      simp only [List.flatMap_cons, run_append]
      rcases List.mem_cons.1 hr with rfl | hr'
      · rw [run_done _ _ hd]
        exact ⟨hd, h1.trans hdoc'⟩
      · refine ih _ hdoc' hn.2 (fun r hr => hl r (List.mem_cons_of_mem _ hr)) ?_ r hr'
        intro r hr
        rw [run_other]
        · exact hs r (List.mem_cons_of_mem _ hr)
        · intro x hx
          obtain ⟨k, _, rfl⟩ := List.mem_map.1 hx
          intro e
          exact hn.1 (List.mem_map.2 ⟨r, hr, e.symm⟩)
  exact gen requests { doc := doc } rfl hn hl (fun r _ => ⟨rfl, rfl⟩)

/-- C105: under all schedules, an answer is never longer than the document and has nothing in it that is not in the document. -/
theorem C105_safe_partial {α : Type} (doc : List α) (schedule : List (Nat × Nat)) (i : Nat) :
    let r := (Server.run { doc := doc } schedule).reqs i
    r.out.length ≤ doc.length ∧ ∀ b ∈ r.out, b ∈ doc := by
  intro r
  obtain ⟨h1, h2⟩ : ReqOk doc r := run_ok { doc := doc } schedule (fun j => ⟨by simp, rfl⟩) i
  refine ⟨?_, h1⟩
  cases hp : r.phase with
  | start => rw [hp] at h2; simp only at h2; rw [h2]; simp
  | sized n => rw [hp] at h2; rw [h2.2]; simp
  | copying left => rw [hp] at h2; simp only at h2; omega
  | done => rw [hp] at h2; exact h2

/-- C105 fails for concurrent requests: whatever the document, unless it is empty, two requests can be interleaved so that one of them
gets nothing. -/
theorem C105_refuted_empty {α : Type} (doc : List α) (h : doc ≠ []) : ∃ schedule : List (Nat × Nat), (∀ x ∈ schedule, x.1 ≤ 1) ∧
    ((Server.run { doc := doc } schedule).reqs 0).phase = .done ∧ ((Server.run { doc := doc } schedule).reqs 0).out = [] := by
  refine ⟨[(0, 0), (0, 0), (1, 0), (0, 0)], by simp, ?_⟩
  obtain ⟨b, bs, rfl⟩ := List.exists_cons_of_ne_nil h
  simp [Server.run, Server.step, Server.setReq]

/-- C105 fails for concurrent requests: one of them can be answered with as many bytes as it announced, and they are the wrong ones. -/
theorem C105_refuted_wrong {α : Type} (a b : α) (rest : List α) (h : a ≠ b) : ∃ schedule : List (Nat × Nat), (∀ x ∈ schedule, x.1 ≤ 1) ∧
    let r := (Server.run { doc := a :: b :: rest } schedule).reqs 0
    r.phase = .done ∧ r.out.length = (a :: b :: rest).length ∧ r.out ≠ a :: b :: rest := by
  refine ⟨[(0, 0), (0, 0), (0, 0), (1, 0), (1, 0), (0, rest.length), (0, 0)], by simp, ?_⟩
  simp only [Server.run, Server.step, Server.setReq, List.foldl]
  simp
  exact fun e => absurd e h

/-- Nothing gets to the disk in a run: the archive cannot be fetched, or the file cannot be opened for writing. -/
def WritesNothing {α : Type} (run : Fetch α × Write) : Prop := (∀ st body, run.1 ≠ .response st body true) ∨ run.2 = .cannotOpen

/-- C106: a file that is there is used as it is, without the network, and stays as it is, in all later runs. -/
theorem C106_kept {α : Type} (content : List α) (runs : List (Fetch α × Write)) :
    (cacheRuns (.file content) runs).1 = .file content ∧ (∀ c ∈ (cacheRuns (.file content) runs).2, c = .ok) ∧
    ∀ net w, (cacheDist (.file content) net w).2.1 = false := by
  refine ⟨?_, ?_, fun _ _ => rfl⟩
  · induction runs with
    | nil => rfl
    | cons r rest ih => exact ih
  · induction runs with
    | nil => intro c h; cases h
    | cons r rest ih =>
      intro c h
      rcases List.mem_cons.1 h with rfl | h'
      · rfl
      · exact ih c h'

theorem cacheDist_nothing {α : Type} {run : Fetch α × Write} (h : WritesNothing run) :
    cacheDist .absent run.1 run.2 = (.absent, true, .error) := by
  obtain ⟨net, w⟩ := run
  unfold cacheDist fileExists
  simp only
  cases net with
  | fails => rfl
  | response st body complete =>
    cases complete with
    | false => rfl
    | true =>
      rcases h with h | h
      · exact absurd rfl (h st body)
      · simp only at h; subst h; rfl

/-- C106: exactly what is at the path after any number of runs: nothing, if nothing could be written in any of them, and otherwise
what was written in the first run in which something could be written, complete or not; from then on every call reports success. -/
theorem C106_history {α : Type} (runs : List (Fetch α × Write)) :
    ((∀ run ∈ runs, WritesNothing run) ∧ (cacheRuns .absent runs).1 = .absent ∧ ∀ c ∈ (cacheRuns .absent runs).2, c = .error) ∨
    ∃ (before : List (Fetch α × Write)) (status : Nat) (body : List α) (count : Nat) (killed : Bool) (after : List (Fetch α × Write)),
      runs = before ++ (.response status body true, .writes count killed) :: after ∧ (∀ run ∈ before, WritesNothing run) ∧
      (cacheRuns .absent runs).1 = .file (body.take count) ∧
      (cacheRuns .absent runs).2 = before.map (fun _ => Cached.error) ++
        (if killed then Cached.killed else if count < body.length then .error else .ok) :: after.map (fun _ => Cached.ok) := by
  induction runs with
  | nil => exact .inl ⟨by simp, rfl, by simp [cacheRuns]⟩
  | cons run rest ih =>
    by_cases h : WritesNothing run
    · have e := cacheDist_nothing h
      have e2 : cacheRuns .absent (run :: rest) = ((cacheRuns .absent rest).1, .error :: (cacheRuns .absent rest).2) := by
        obtain ⟨net, w⟩ := run
        rw [cacheRuns]
        simp only at e
        rw [e]
      rw [e2]
      rcases ih with ⟨h1, h2, h3⟩ | ⟨before, st, body, n, k, after, h1, h2, h3, h4⟩
      · refine .inl ⟨List.forall_mem_cons.2 ⟨h, h1⟩, h2, ?_⟩
        intro c hc
        rcases List.mem_cons.1 hc with rfl | hc'
        · rfl
        · exact h3 c hc'
      · refine .inr ⟨run :: before, st, body, n, k, after, by rw [h1]; rfl, List.forall_mem_cons.2 ⟨h, h2⟩, h3, ?_⟩
        simp only
        rw [h4]
        rfl
    · obtain ⟨net, w⟩ := run
      unfold WritesNothing at h
      push Not at h
      obtain ⟨⟨st, body, h1⟩, h2⟩ := h
      simp only at h1 h2
      subst h1
      cases w with
      | cannotOpen => exact absurd rfl h2
      | writes n k =>
        refine .inr ⟨[], st, body, n, k, rest, rfl, by simp, ?_, ?_⟩
        · exact (C106_kept (body.take n) rest).1
        · have : ∀ runs : List (Fetch α × Write), (cacheRuns (.file (body.take n)) runs).2 = runs.map (fun _ => Cached.ok) := by
            intro runs
            induction runs with
            | nil => rfl
            | cons r rs ih => rw [cacheRuns]; exact congrArg _ ih
          rw [cacheRuns]
          show _ :: (cacheRuns (.file (body.take n)) rest).2 = _
          rw [this]
          rfl

/-- C106: if every response that arrives is the archive, and every write that begins is finished, then whatever happens otherwise, what is
at the path is nothing or the archive, and if the last call reports success, it is the archive. -/
theorem C106_sound_partial {α : Type} (zip : List α) (runs : List (Fetch α × Write))
    (hn : ∀ run ∈ runs, ∀ st body, run.1 = .response st body true → body = zip)
    (hw : ∀ run ∈ runs, ∀ n k, run.2 = .writes n k → zip.length ≤ n) :
    ((cacheRuns .absent runs).1 = .absent ∨ (cacheRuns .absent runs).1 = .file zip) ∧
    ((cacheRuns .absent runs).2.getLast? = some .ok → (cacheRuns .absent runs).1 = .file zip) := by
  rcases C106_history runs with ⟨_, h2, h3⟩ | ⟨before, st, body, n, k, after, h1, _, h3, _⟩
  · refine ⟨.inl h2, fun h => ?_⟩
    have := h3 _ (List.mem_of_getLast? h)
    cases this
  · have m : (Fetch.response st body true, Write.writes n k) ∈ runs := by rw [h1]; simp
    have e := hn _ m st body rfl
    subst e
    have := hw _ m n k rfl
    rw [List.take_of_length_le this] at h3
    exact ⟨.inr h3, fun _ => h3⟩

/-- The hypotheses can be met: the first run has no network, the second one caches the archive, the third one finds it. -/
theorem C106_example : cacheRuns (.absent : Node Nat) [(.fails, .cannotOpen), (.response 200 [1, 2, 3] true, .writes 3 false), (.fails, .cannotOpen)] =
    (.file [1, 2, 3], [.error, .ok, .ok]) := rfl

/-- C106 fails if the server of the archive reports an error: its page is taken for the archive, in this run and in all later ones. -/
theorem C106_refuted_status {α : Type} (page : List α) (later : List (Fetch α × Write)) :
    (cacheRuns .absent ((.response 404 page true, .writes page.length false) :: later)).1 = .file page ∧
    ∀ c ∈ (cacheRuns .absent ((.response 404 page true, .writes page.length false) :: later)).2, c = .ok := by
  have e : cacheDist (.absent : Node α) (.response 404 page true) (.writes page.length false) = (.file page, true, .ok) := by
    simp [cacheDist, fileExists]
  rw [cacheRuns]
  simp only [e]
  refine ⟨(C106_kept page later).1, ?_⟩
  intro c hc
  rcases List.mem_cons.1 hc with rfl | h'
  · rfl
  · exact (C106_kept page later).2.1 c h'

/-- C106 fails if the process is killed while it writes, or the disk is full: the piece that was written is taken for the archive in all
later runs, even if the network works. -/
theorem C106_refuted_crash {α : Type} (zip : List α) (n : Nat) (killed : Bool) (hn : n < zip.length) (later : List (Fetch α × Write)) :
    (cacheRuns .absent ((.response 200 zip true, .writes n killed) :: later)).1 = .file (zip.take n) ∧ zip.take n ≠ zip ∧
    ∀ c ∈ (cacheRuns .absent ((.response 200 zip true, .writes n killed) :: later)).2.tail, c = .ok := by
  refine ⟨(C106_kept (zip.take n) later).1, ?_, ?_⟩
  · intro h
    have := congrArg List.length h
    rw [List.length_take] at this
    omega
  · exact (C106_kept (zip.take n) later).2.1

/-- C106 fails if the path cannot be examined, as for a directory without permission: the command crashes. -/
theorem C106_refuted_panic {α : Type} (net : Fetch α) (w : Write) : (cacheDist .unreadable net w).2.2 = .panic := rfl

/-- C106: different releases have different files, wherever they are. -/
theorem C106_paths (a b dir home : String) (ha : a ≠ "") (hb : b ≠ "") (h : cachePath a dir home = cachePath b dir home) : a = b := by
  unfold cachePath at h
  simp only [ha, hb, if_false] at h
  have := congrArg String.toList h
  simp only [String.toList_append] at this
  have := List.append_cancel_right this
  have := List.append_cancel_left this
  exact String.toList_inj.1 this

end Sadl.Props
