import Verif.Lemmas.ImportOrder
import Verif.Props.Swagger
/-
C82: the import of an OpenAPI document, when the runtime enumerates its maps in another order.
-/
namespace Sadl.Props
open Sadl Sadl.Spec

/-- C82 (part): When a document with at most one successful response for each operation is
imported, then it is imported whatever the order of its schemas, its paths and its responses,
and the models have the same types, and the same actions up to the order of the exceptions.
Missing: operations with several successful responses, for which the property is false, see
below; the orders of the properties of schemas and of the headers of responses. -/
theorem C82_order_partial {d d' : ODoc} {name : String} {m : Model} (hd : ReorderedDoc d d') (h : toSadl d name = .ok m)
    (h1 : ∀ p ∈ d.paths, ∀ k op, p.2.op k = some op → OneSuccess op) :
    ∃ m', toSadl d' name = .ok m' ∧ m'.schema.types.Perm m.schema.types ∧
      (∃ hs : List HttpDef, hs.Perm m.schema.http ∧ List.Forall₂ ReorderedAction hs m'.schema.http) ∧
      m'.schema = { m.schema with types := m'.schema.types, http := m'.schema.http, examples := m'.schema.examples } := by
  obtain ⟨⟨hsd, hsp⟩, ⟨l, hl, hf⟩, hrest⟩ := hd
  unfold toSadl at h
  dsimp only at h
  obtain ⟨⟨tds, e1⟩, h2, h⟩ := Out.bind_eq_ok.1 h
  obtain ⟨⟨hs, e2⟩, h3, h⟩ := Out.bind_eq_ok.1 h
  obtain ⟨n1, n2, n3, rfl⟩ := (newModel_ok_iff _ _).1 h
  rw [importTypes_collect] at h2
  obtain ⟨tds', e1', h4, h5, -⟩ := collect_perm hsp h2
  rw [← importTypes_collect, ← importTypes_all (mget_perm hsd hsp)] at h4
  rw [importPaths_collect] at h3
  obtain ⟨hs1, e2', h6, h7, -⟩ := collect_perm hl h3
  rw [← importPaths_collect] at h6
  obtain ⟨hs', h8, h9⟩ := importPaths_same hf (fun a ha => h1 a (hl.mem_iff.1 ha)) h6
  have hnames : hs'.map (·.name) = hs1.map (·.name) := by
    clear h8 h6 h7
    induction h9 with
    | nil => rfl
    | cons a _ ih => obtain ⟨xs, -, rfl⟩ := a; simp only [List.map_cons, ih]
  have hann : importAnnotations d' = importAnnotations d := by rw [hrest]; rfl
  have ht : d'.title = d.title := by rw [hrest]
  have hde : d'.description = d.description := by rw [hrest]
  have hv : d'.version = d.version := by rw [hrest]
  have hrun : toSadl d' name = newModel
      { name := (importTitle d.title d.description name).1, comment := (importTitle d.title d.description name).2, version := d.version
        types := tds', http := hs', annotations := importAnnotations d, examples := e1' ++ e2' } := by
    unfold toSadl
    dsimp only
    rw [h4, h8]
    simp only [Out.bind]
    rw [ht, hde, hv, hann]
  rw [hrun]
  refine ⟨_, (newModel_ok_iff _ _).2 ⟨?_, ?_, ?_, rfl⟩, h5, ⟨hs1, h7, h9⟩, rfl⟩
  · exact ((h5.map _).nodup_iff).2 n1
  · exact fun td htd => n2 td (h5.mem_iff.1 htd)
  · dsimp only
    rw [hnames]
    exact ((h7.map _).nodup_iff).2 n3

/-! ### Refutation -/

/-- An operation with two successful responses. -/
def twice (rs : GoMap OResponse) : ODoc :=
  { openapi := "3.0.0", title := "t", version := "1", paths := [("/x", { get := some { operationId := "f", responses := rs } })] }

/-- The statuses of the expected responses. -/
def expectedB (d : ODoc) (st : Int) : Bool :=
  match toSadl d "t" with
  | .ok m => m.schema.http.any fun h => h.expected.any fun e => e.status == st
  | _ => false

/-- C82 is false: with two successful responses, the order decides which one is expected and which
one becomes an exception. -/
theorem C82_refuted_success : ∃ d d', ReorderedDoc d d' ∧ expectedB d 200 = true ∧ expectedB d' 200 = false ∧ expectedB d' 202 = true := by
  refine ⟨twice [("200", {}), ("202", {})], twice [("202", {}), ("200", {})], ⟨⟨show List.Nodup [] from .nil, .refl _⟩, ⟨_, .refl _, ?_⟩, rfl⟩,
    by decide +kernel, by decide +kernel, by decide +kernel⟩
  refine .cons ⟨rfl, fun k => ?_⟩ .nil
  cases k
  · exact .some ⟨by unfold GoMap.Distinct; decide, _, .swap _ _ _, rfl⟩
  all_goals exact .none

/-- A schema with two properties, one of which cannot be converted. -/
def mixed (ps : List (String × OSchema)) : ODoc :=
  { openapi := "3.0.0", title := "t", version := "1", schemas := [("T", { type := "object", properties := some ps })] }

/-- C82 is false: the order of the properties decides whether the import fails, because the error
of a property is forgotten when another is converted. -/
theorem C82_refuted_properties :
    let bad : String × OSchema := ("a", { type := "string", enum := some [.int 1] })
    let good : String × OSchema := ("b", { type := "string" })
    (∃ e, toSadl (mixed [good, bad]) "t" = .err e) ∧ (∃ m, toSadl (mixed [bad, good]) "t" = .ok m) := by
  constructor
  · exact ⟨_, rfl⟩
  · exact ⟨_, rfl⟩

/-- A document with two paths and an operation with an exception, and the same in another order. -/
example : ∃ d d' m, ReorderedDoc d d' ∧ d.paths ≠ d'.paths ∧ toSadl d "t" = .ok m ∧
    (∀ p ∈ d.paths, ∀ k op, p.2.op k = some op → OneSuccess op) := by
  let a : String × OPathItem := ("/x", { get := some { operationId := "f", responses := [("200", {}), ("404", {})] } })
  let a' : String × OPathItem := ("/x", { get := some { operationId := "f", responses := [("404", {}), ("200", {})] } })
  let b : String × OPathItem := ("/y", { put := some { operationId := "g", responses := [("204", {})] } })
  have hab : ∃ m, toSadl { openapi := "3.0.0", title := "t", version := "1", paths := [a, b] } "t" = .ok m := by
    have : (match toSadl { openapi := "3.0.0", title := "t", version := "1", paths := [a, b] } "t" with | .ok _ => true | _ => false) = true := by
      decide +kernel
    split at this
    · rename_i h; exact ⟨_, h⟩
    · cases this
  obtain ⟨m, hm⟩ := hab
  refine ⟨{ openapi := "3.0.0", title := "t", version := "1", paths := [a, b] }, { openapi := "3.0.0", title := "t", version := "1", paths := [b, a'] }, m,
    ⟨⟨show List.Nodup [] from .nil, .refl _⟩, ⟨[b, a], .swap _ _ _, ?_⟩, rfl⟩, ?_, hm, ?_⟩
  · refine .cons ⟨rfl, fun k => ?_⟩ (.cons ⟨rfl, fun k => ?_⟩ .nil)
    · cases k
      case put => exact .some ⟨by unfold GoMap.Distinct; decide, _, .refl _, rfl⟩
      all_goals exact .none
    · cases k
      case get => exact .some ⟨by unfold GoMap.Distinct; decide, _, .swap _ _ _, rfl⟩
      all_goals exact .none
  · intro h
    have := congrArg (List.map Prod.fst) h
    simp [a, b] at this
  · intro p hp k op hop
    have hx : ¬ Success "404" := by rintro ⟨r, h | h⟩ <;> · have := congrArg List.head? h; simp at this
    simp only [List.mem_cons, List.not_mem_nil, or_false] at hp
    rcases hp with rfl | rfl <;> cases k <;> simp [a, b, OPathItem.op] at hop <;> subst hop <;>
      simp [OneSuccess, hx]

end Sadl.Props
