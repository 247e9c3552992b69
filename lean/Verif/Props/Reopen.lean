import Verif.Model.OpenPath
import Verif.Lemmas.Loader
import Verif.Props.OpenPathExample

/-! C119: opening a path again, with the cached files that the first opening left. -/

namespace Brel

/-- All cached files of the first directory are in the second one. -/
def Keeps (a b : Dict String String) : Prop := ∀ n c, a.get? n = some c → b.get? n = some c

theorem Keeps.refl (a : Dict String String) : Keeps a a := fun _ _ h => h

theorem Keeps.trans {a b c : Dict String String} (h : Keeps a b) (k : Keeps b c) : Keeps a c := fun n x hx => k n x (h n x hx)

/-- Fetching changes no cached file, if the document can be read under its own name afterwards. -/
theorem fetchFile_keeps {env : LoadEnv} {s s' : LoadState} {u c text : String} {r : Bool} (h : fetchFile env s u r = .ok (c, s')) (ht : s'.files.get? (fileName u) = some text) :
    Keeps s.files s'.files ∧ text = c ∧ s'.docs = s.docs := by
  unfold fetchFile at h
  cases hg : s.files.get? (fileName u) with
  | some x =>
    rw [hg] at h
    obtain ⟨rfl, rfl⟩ := Prod.mk.inj (Except.ok.inj h)
    rw [hg] at ht
    exact ⟨Keeps.refl _, (Option.some.inj ht).symm, rfl⟩
  | none =>
    rw [hg] at h
    have hk : ∀ n x, (s.files.set n x).get? (fileName u) = some text → Keeps s.files (s.files.set n x) ∧ text = x := by
      intro n x hx
      rw [Dict.get?_set] at hx
      by_cases e : n = fileName u
      · subst e
        rw [if_pos rfl] at hx
        refine ⟨?_, (Option.some.inj hx).symm⟩
        intro m d hm
        rw [Dict.get?_set]
        by_cases e : fileName u = m
        · subst e; rw [hg] at hm; cases hm
        · rw [if_neg (by simpa [eq_comm] using e)]; exact hm
      · rw [if_neg (by simpa [eq_comm] using e), hg] at hx
        cases hx
    dsimp only at h
    split at h
    · split at h
      · obtain ⟨rfl, rfl⟩ := Prod.mk.inj (Except.ok.inj h)
        exact ⟨(hk _ _ ht).1, (hk _ _ ht).2, rfl⟩
      · cases h
    · split at h
      · obtain ⟨rfl, rfl⟩ := Prod.mk.inj (Except.ok.inj h)
        exact ⟨(hk _ _ ht).1, (hk _ _ ht).2, rfl⟩
      · cases h

theorem foldlM_reload {A : Type} {f g : LoadState → A → Except PyErr LoadState}
    (hfg : ∀ a s s', f s a = .ok s' → Keeps s.files s'.files ∧ ∀ F, Keeps s'.files F → ∀ l, g ⟨F, s.docs, l⟩ a = .ok ⟨F, s'.docs, l⟩) :
    ∀ (as : List A) (s s' : LoadState), as.foldlM f s = .ok s' → Keeps s.files s'.files ∧ ∀ F, Keeps s'.files F → ∀ l, as.foldlM g ⟨F, s.docs, l⟩ = .ok ⟨F, s'.docs, l⟩ := by
  intro as
  induction as with
  | nil =>
    intro s s' h
    obtain rfl := Except.ok.inj h
    exact ⟨Keeps.refl _, fun _ _ _ => rfl⟩
  | cons a as ih =>
    intro s s' h
    rw [List.foldlM_cons] at h
    cases ha : f s a with
    | error e => rw [ha] at h; cases h
    | ok t =>
      rw [ha] at h
      obtain ⟨k1, g1⟩ := hfg a s t ha
      obtain ⟨k2, g2⟩ := ih t s' h
      refine ⟨k1.trans k2, fun F hF l => ?_⟩
      rw [List.foldlM_cons, g1 F (k2.trans hF) l]
      exact g2 F hF l

theorem loadDoc_reload {env env' : LoadEnv} (h1 : env'.parse = env.parse) (h2 : env'.join = env.join) (h3 : env'.rewrites = env.rewrites)
    (h4 : env'.so = env.so) (n : Nat) : ∀ (s s' : LoadState) (uri ref : String), loadDoc env n s uri ref = .ok s' →
      Keeps s.files s'.files ∧ ∀ F, Keeps s'.files F → ∀ l, loadDoc env' n ⟨F, s.docs, l⟩ uri ref = .ok ⟨F, s'.docs, l⟩ := by
  induction n with
  | zero => intro s s' uri ref h; cases h
  | succ n ih =>
    intro s s' uri ref h
    have hr : resolveUri env' ref uri = resolveUri env ref uri := by unfold resolveUri; rw [h2, h3]
    unfold loadDoc at h
    dsimp only at h
    by_cases hh : s.docs.has (normalizeUri (resolveUri env ref uri)) = true
    · rw [if_pos hh] at h
      obtain rfl := Except.ok.inj h
      refine ⟨Keeps.refl _, fun F hF l => ?_⟩
      unfold loadDoc
      dsimp only
      rw [hr, if_pos hh]
      rfl
    rw [if_neg hh] at h
    cases hs : !hasParser (resolveUri env ref uri) with
    | true => rw [hs, if_pos rfl] at h; cases h
    | false =>
      rw [hs, if_neg Bool.false_ne_true] at h
      cases hf : fetchFile env s (resolveUri env ref uri) (isHttp (resolveUri env ref uri) || isHttp ref) with
      | error e => rw [hf] at h; cases h
      | ok p =>
        obtain ⟨c, t⟩ := p
        rw [hf] at h
        simp only [bind, Except.bind] at h
        cases hpa : env.parse c with
        | error e => rw [hpa] at h; cases h
        | ok tree =>
          rw [hpa] at h
          dsimp only at h
          cases ht : t.files.get? (fileName (resolveUri env ref uri)) with
          | none => rw [ht] at h; cases h
          | some text =>
          obtain ⟨k1, rfl, d1⟩ := fetchFile_keeps hf ht
          have g1 := ht
          rw [ht] at h
          dsimp only at h
          cases hx : extractReferences text with
          | error e => rw [hx] at h; cases h
          | ok refs =>
            rw [hx] at h
            dsimp only at h
            obtain ⟨k2, g2⟩ := foldlM_reload (f := fun s r => loadDoc env n s r (resolveUri env ref uri)) (g := fun s r => loadDoc env' n s r (resolveUri env ref uri))
              (fun a s s' ha => ih s s' a _ ha) _ _ _ h
            refine ⟨k1.trans k2, fun F hF l => ?_⟩
            have hg : F.get? (fileName (resolveUri env ref uri)) = some text := hF _ _ (k2 _ _ g1)
            have := g2 F hF l
            unfold loadDoc
            dsimp only
            rw [hr, if_neg hh, hs, if_neg Bool.false_ne_true]
            have hff : fetchFile env' ⟨F, s.docs, l⟩ (resolveUri env ref uri) (isHttp (resolveUri env ref uri) || isHttp ref) = .ok (text, ⟨F, s.docs, l⟩) := by
              unfold fetchFile; dsimp only; rw [hg]
            rw [hff]
            simp only [bind, Except.bind]
            rw [h1, hpa]
            dsimp only
            rw [hg]
            dsimp only
            rw [hx, h4]
            dsimp only
            rw [d1] at this
            exact this

/-- C119: once the documents have been loaded, loading them again with the files cached then gives the same documents in the same order, and neither the web nor the disk is asked for any of
them. -/
theorem C119_documents {env env' : LoadEnv} (h1 : env'.parse = env.parse) (h2 : env'.join = env.join) (h3 : env'.rewrites = env.rewrites)
    (h4 : env'.so = env.so) {depth : Nat} {cache : Dict String String} {entries : List String} {s : LoadState} (h : loadAll env depth { files := cache } entries = .ok s) :
    loadAll env' depth { files := s.files } entries = .ok { files := s.files, docs := s.docs, fetched := [] } :=
  (foldlM_reload (f := fun s e => loadDoc env depth s e ".") (g := fun s e => loadDoc env' depth s e ".") (fun a s s' ha => loadDoc_reload h1 h2 h3 h4 depth s s' a _ ha) entries _ s h).2
    s.files (Keeps.refl _) []

/-- The parser created again. -/
theorem createParser_reload {env env' : LoadEnv} (h1 : env'.parse = env.parse) (h2 : env'.join = env.join) (h4 : env'.so = env.so)
    {depth : Nat} {cache : Dict String String} {files : List String} (hc : ∀ c, catalogPath files = some c → env'.disk c = env.disk c) {k : ParserKind} {s : LoadState} {errs : List String}
    (h : createParser env depth cache files = .ok (k, s, errs)) :
    createParser env' depth s.files files = .ok (k, { files := s.files, docs := s.docs, fetched := [] }, errs) := by
  unfold createParser at h ⊢
  by_cases hn : files = []
  · rw [if_pos hn] at h; cases h
  rw [if_neg hn] at h ⊢
  have core : ∀ (rest : List String) (rw' : Rewrites) (e' : List String),
      (do let s ← loadAll { env with rewrites := rw' } depth { files := cache } rest; let k ← parserKind rest; return (k, s, e') : Except PyErr (ParserKind × LoadState × List String)) = .ok (k, s, errs) →
      (do let s ← loadAll { env' with rewrites := rw' } depth { files := s.files } rest; let k ← parserKind rest; return (k, s, e') : Except PyErr (ParserKind × LoadState × List String)) =
        .ok (k, { files := s.files, docs := s.docs, fetched := [] }, errs) := by
    intro rest rw' e' h
    simp only [bind, Except.bind] at h ⊢
    cases hl : loadAll { env with rewrites := rw' } depth { files := cache } rest with
    | error e => rw [hl] at h; cases h
    | ok t =>
      rw [hl] at h
      dsimp only at h
      cases hk : parserKind rest with
      | error e => rw [hk] at h; cases h
      | ok k' =>
        rw [hk] at h
        obtain ⟨rfl, hte⟩ := Prod.mk.inj (Except.ok.inj h)
        obtain ⟨rfl, rfl⟩ := Prod.mk.inj hte
        rw [C119_documents (env := { env with rewrites := rw' }) (env' := { env' with rewrites := rw' }) h1 h2 rfl h4 hl]
        rfl
  cases hcp : catalogPath files with
  | none =>
    rw [hcp] at h
    exact core files [] [] h
  | some c =>
    rw [hcp] at h
    dsimp only at h ⊢
    rw [hc c hcp]
    cases hd : env.disk c with
    | none => rw [hd] at h; cases h
    | some text =>
      rw [hd] at h
      dsimp only at h ⊢
      cases ht : env.parse text with
      | error e => rw [ht] at h; cases h
      | ok root =>
        have ht' : env'.parse text = .ok root := by rw [h1]; exact ht
        rw [ht] at h
        rw [ht']
        simp only [bind, Except.bind] at h ⊢
        cases hq : parseCatalog c root with
        | error e => rw [hq] at h; cases h
        | ok p =>
          obtain ⟨rw', e'⟩ := p
          rw [hq] at h
          exact core _ rw' e' h

/-- C119: a path that could be opened is opened again with the same result from the files cached the first time, whatever the web and the disk have by then, except for the catalog, which is
read anew. In particular it can be opened without a connection. -/
theorem C119_same_result {env env' : OpenEnv} (h1 : env'.load.parse = env.load.parse) (h2 : env'.load.join = env.load.join)
    (h4 : env'.load.so = env.load.so) (hr : env' = { env with load := env'.load }) {depth fuel steps : Nat} {cache : Dict String String} {kind : PathKind} {zip : List String} {path : String}
    {files : List String} {k : ParserKind} {s : LoadState} {errs : List String} (hf : pathFiles kind zip path = .ok files) (hc : ∀ c, catalogPath files = some c → env'.load.disk c = env.load.disk c)
    (h : createParser env.load depth cache files = .ok (k, s, errs)) :
    openPath env' depth fuel steps s.files kind zip path = openPath env depth fuel steps cache kind zip path := by
  unfold openPath
  rw [hf]
  dsimp only
  rw [h, createParser_reload h1 h2 h4 hc h, hr]
  cases k with
  | xml => dsimp only; rw [h4]; rfl
  | xhtml => dsimp only; rw [h4]; rfl

/-- Test: the filing of the example of C111, on a server the first time, is opened again when there is no server any more. -/
example : ∃ s, createParser PathExample.server 3 [] ["http://ex/i.xml"] = .ok (.xml, s, []) ∧
    openPath { PathExample.opener with load := { PathExample.server with web := fun _ => none } } 3 0 9 s.files .other [] "http://ex/i.xml" = openPath PathExample.opener 3 0 9 [] .other [] "http://ex/i.xml" := by
  obtain ⟨s, h, _⟩ := createParser_reached (env := PathExample.server) (depth := 3) (cache := []) (files := ["http://ex/i.xml"]) (entries := ["http://ex/i.xml"]) (rewrites := []) (k := .xml)
    (src := PathExample.textOf) (U := ["http://ex/i.xml", PathExample.schemaAt]) (by simp) (.none (by
      intro f hf
      rw [List.mem_singleton.1 hf]
      intro hc
      have := (endsWith_iff _ _).2 hc
      revert this
      decide)) (by intro f hf; rw [List.mem_singleton.1 hf]; exact ⟨".xml", by simp, ⟨"http://ex/i".toList, by decide⟩⟩) (PathExample.readable (Or.inl rfl)) (by decide)
  have hc : catalogPath ["http://ex/i.xml"] = none := by decide +kernel
  exact ⟨s, h, C119_same_result (env := PathExample.opener) (env' := { PathExample.opener with load := { PathExample.server with web := fun _ => none } }) rfl rfl rfl rfl (kind := .other) (zip := []) (path := "http://ex/i.xml") (files := ["http://ex/i.xml"]) rfl (by intro c e; rw [hc] at e; cases e) h⟩

end Brel
