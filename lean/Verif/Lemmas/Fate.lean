import Verif.Spec.Fate
import Verif.Lemmas.Lines
import Verif.Lemmas.Parse
import Verif.Lemmas.File
/-! Helper lemmas: what `read` does with a line, by its fate. -/
namespace Arinc
open Py Spec Spec.Std

/-- finite check: no list of fields is empty, and a section raises on other types iff it is listed -/
def restOK (k : Str) : Branch → Bool
  | .always l => !l.isEmpty
  | .onApp _ cs o => cs.all (fun c => !c.2.isEmpty) && match o with
    | .raise => raising.contains k
    | .empty => !raising.contains k
    | .layout l => !l.isEmpty

theorem rest_ok : registry.all (fun e => restOK e.1 e.2.onPrimary && restOK e.1 e.2.onCont) = true := by
  decide +kernel

theorem select_nil {k : Str} {d : Definition} (hd : registry.lookup k = some d) {p : Bool} {line : Str}
    (h0 : layoutOf k p (pick line (appColumns k)) = []) :
    (k ∈ raising ∧ (d.branch p).select line = .error .valueError) ∨
    (k ∉ raising ∧ (d.branch p).select line = .ok []) := by
  have hall := List.all_eq_true.1 rest_ok _ (lookup_mem hd)
  simp only [Bool.and_eq_true] at hall
  have hok : restOK k (d.branch p) = true := by
    unfold Definition.branch; cases p
    · exact hall.2
    · exact hall.1
  have hlay : ∀ l, (d.branch p).select line = .ok l → l = [] := fun l hs => by
    rw [select_layoutOf hd hs, h0]
  cases hb : d.branch p with
  | always l =>
    rw [hb] at hlay hok
    cases hlay l rfl
    cases hok
  | onApp sel cs o =>
    rw [hb] at hlay hok
    simp only [restOK, Bool.and_eq_true] at hok
    simp only [Branch.select] at hlay ⊢
    cases hc : cs.lookup (pick line sel.columns) with
    | some l =>
      rw [hc] at hlay
      cases hlay l rfl
      have := List.all_eq_true.1 hok.1 _ (lookup_mem hc)
      cases this
    | none =>
      rw [hc] at hlay
      cases o with
      | empty => right; simpa using hok.2
      | raise => left; simpa using hok.2
      | layout l => cases hlay l rfl; simp at hok

theorem recordName_some {k : Str} {d : Definition} (hd : registry.lookup k = some d) {i : Nat}
    (hi : contColumn k = some i) : ∃ nm, recordName k = some nm := by
  have h : registry.all (fun p => p.2.contIdx.isNone || p.2.name.isSome) = true := by decide +kernel
  have := List.all_eq_true.1 h _ (lookup_mem hd)
  simp only [(entry_facts hd).cont, hi, Option.isNone_some, Bool.false_or] at this
  rw [name_of hd hi] at this
  exact Option.isSome_iff_exists.1 this

variable [PyUnicode]

/-- `read` on a line of a section with a proper continuation number but no fields -/
theorem ofSection_read {r : Record} {line t k : Str} (h : OfSection line t k)
    (hf : fieldsOf k (isPrimary r.continuation t k) (pick line (appColumns k)) = []) :
    ∃ d, (k ∈ raising ∧ r.read line = ⟨.error .valueError, r.enter line k d, []⟩) ∨
      (k ∉ raising ∧ r.read line = ⟨.ok false, { r.enter line k d with fields := [] }, []⟩) := by
  obtain ⟨d, hd, he, hs, _, hr⟩ := read_section h.padded h.shape h.section_ r
  refine ⟨d, ?_⟩
  have h0 := (agree_nil (agree_lookup hd (isPrimary r.continuation t k) (pick line (appColumns k)))).2 hf
  rw [hr]
  unfold Record.readAs
  have hc : ¬ (d.contIdx.isSome = true ∧ isAlnum (r.enter line k d).continuation = false) := by
    rintro ⟨h1, h2⟩
    obtain ⟨i, hi⟩ := Option.isSome_iff_exists.1 h1
    rw [enter_cont hi, hs, h.continuation i (by rw [← he.cont, hi])] at h2
    cases h2
  simp only [hc, if_false]
  unfold Record.finish
  rw [enter_isPrimary he hs]
  rcases select_nil hd h0 with ⟨h1, h2⟩ | ⟨h1, h2⟩
  · left; rw [h2]; exact ⟨h1, rfl⟩
  · right; rw [h2]; exact ⟨h1, rfl⟩

theorem fate_exists (before line : Str) : ∃ f, FateOf before line f := by
  rcases read_cases Record.new line with ⟨hw, _⟩ | ⟨hrec, hn, _⟩ | ⟨hrec, k, d, hres, hd, _, _⟩
  · exact ⟨_, .notRecord hw⟩
  · exact ⟨_, .noSection (padded_strip line) hrec fun k hk => by rw [resolve_iff.2 hk] at hn; cases hn⟩
  · have hk := resolve_iff.1 hres
    by_cases hc : ∀ i, contColumn k = some i → isAlnum (col (strip line) i) = true
    · have ho : OfSection line (strip line) k := ⟨padded_strip line, hrec, hk, hc⟩
      by_cases hf : fieldsOf k (isPrimary before (strip line) k) (pick line (appColumns k)) = []
      · by_cases hr : k ∈ raising
        · exact ⟨_, .refused ho hf hr⟩
        · exact ⟨_, .noFields ho hf hr⟩
      · exact ⟨_, .record ⟨ho.padded, ho.shape, ho.section_, ho.continuation, rfl, hf⟩⟩
    · obtain ⟨i, hc⟩ := Classical.not_forall.1 hc
      obtain ⟨hi, hc⟩ := Classical.not_imp.1 hc
      obtain ⟨nm, hnm⟩ := recordName_some hd hi
      exact ⟨_, .badNumber (padded_strip line) hrec hk hi (by simpa using hc) hnm⟩

theorem fate_unique {before line : Str} {f g : Fate} (hf : FateOf before line f) (hg : FateOf before line g) :
    f = g := by
  have ht : ∀ {t t' : Str}, Padded line t → IsRecord t → Padded line t' → IsRecord t' → t = t' :=
    fun h1 h2 h3 h4 => by rw [← isRecord_strip h1 h2, isRecord_strip h3 h4]
  cases hf with
  | notRecord h => cases hg with
    | notRecord _ => rfl
    | noSection hp ht _ => exact absurd ⟨_, hp, ht⟩ h
    | badNumber hp ht => exact absurd ⟨_, hp, ht⟩ h
    | refused o => exact absurd ⟨_, o.padded, o.shape⟩ h
    | noFields o => exact absurd ⟨_, o.padded, o.shape⟩ h
    | record o => exact absurd ⟨_, o.padded, o.shape⟩ h
  | noSection hp hs h => cases hg with
    | notRecord h' => exact absurd ⟨_, hp, hs⟩ h'
    | noSection hp' hs' _ => rw [ht hp hs hp' hs']
    | badNumber _ _ hk => exact absurd hk (h _)
    | refused o => exact absurd o.section_ (h _)
    | noFields o => exact absurd o.section_ (h _)
    | record o => exact absurd o.section_ (h _)
  | badNumber hp hs hk hi h hn => cases hg with
    | notRecord h' => exact absurd ⟨_, hp, hs⟩ h'
    | noSection _ _ h' => exact absurd hk (h' _)
    | badNumber hp' hs' hk' hi' h' hn' =>
      cases ht hp hs hp' hs'
      cases resolves_functional hk hk'
      rw [hi] at hi'
      cases hi'
      rw [hn] at hn'
      cases hn'
      rfl
    | refused o | noFields o | record o =>
      cases ht hp hs o.padded o.shape
      cases resolves_functional hk o.section_
      rw [o.continuation _ hi] at h
      cases h
  | refused o hf hr => cases hg with
    | notRecord h' => exact absurd ⟨_, o.padded, o.shape⟩ h'
    | noSection _ _ h' => exact absurd o.section_ (h' _)
    | badNumber hp hs hk hi h hn =>
      cases ht hp hs o.padded o.shape
      cases resolves_functional hk o.section_
      rw [o.continuation _ hi] at h
      cases h
    | refused o' => cases ht o'.padded o'.shape o.padded o.shape; cases resolves_functional o'.section_ o.section_; rfl
    | noFields o' _ hr' => cases resolves_functional o'.section_ o.section_; exact absurd hr hr'
    | record o' =>
      cases ht o'.padded o'.shape o.padded o.shape
      cases resolves_functional o'.section_ o.section_
      exact absurd (o'.fields.trans hf) o'.listed
  | noFields o hf hr => cases hg with
    | notRecord h' => exact absurd ⟨_, o.padded, o.shape⟩ h'
    | noSection _ _ h' => exact absurd o.section_ (h' _)
    | badNumber hp hs hk hi h hn =>
      cases ht hp hs o.padded o.shape
      cases resolves_functional hk o.section_
      rw [o.continuation _ hi] at h
      cases h
    | refused o' _ hr' => cases resolves_functional o'.section_ o.section_; exact absurd hr' hr
    | noFields o' => cases ht o'.padded o'.shape o.padded o.shape; cases resolves_functional o'.section_ o.section_; rfl
    | record o' =>
      cases ht o'.padded o'.shape o.padded o.shape
      cases resolves_functional o'.section_ o.section_
      exact absurd (o'.fields.trans hf) o'.listed
  | record o => cases hg with
    | notRecord h' => exact absurd ⟨_, o.padded, o.shape⟩ h'
    | noSection _ _ h' => exact absurd o.section_ (h' _)
    | badNumber hp hs hk hi h hn =>
      cases ht hp hs o.padded o.shape
      cases resolves_functional hk o.section_
      rw [o.continuation _ hi] at h
      cases h
    | refused o' hf | noFields o' hf =>
      cases ht o'.padded o'.shape o.padded o.shape
      cases resolves_functional o'.section_ o.section_
      exact absurd (o.fields.trans hf) o.listed
    | record o' =>
      cases ht o'.padded o'.shape o.padded o.shape
      cases resolves_functional o'.section_ o.section_
      rw [o.fields, o'.fields]

theorem fate_read {r : Record} {line : Str} {f : Fate} (h : FateOf r.continuation line f) :
    (r.read line).res = f.returns ∧ (r.read line).out = f.prints ∧
    ((r.read line).obj.raw, (r.read line).obj.ident, (r.read line).obj.fields) =
      f.leaves line (r.raw, r.ident, r.fields) := by
  cases h with
  | notRecord h =>
    rcases read_cases r line with ⟨_, h'⟩ | ⟨hrec, _⟩ | ⟨hrec, _⟩
    · rw [h']; exact ⟨rfl, rfl, rfl⟩
    · exact absurd ⟨_, padded_strip line, hrec⟩ h
    · exact absurd ⟨_, padded_strip line, hrec⟩ h
  | noSection hp hs h =>
    rcases read_cases r line with ⟨h', _⟩ | ⟨_, _, h'⟩ | ⟨_, k, _, hk, _⟩
    · exact absurd ⟨_, hp, hs⟩ h'
    · rw [h', isRecord_strip hp hs]; exact ⟨rfl, rfl, rfl⟩
    · exact absurd (resolve_iff.1 hk) (h k)
  | badNumber hp hs hk hi h hn =>
    obtain ⟨d, _, _, _, he, _, ⟨_, h'⟩ | ⟨h', _⟩⟩ := read_cont hp hs hk hi r
    · rw [h', hn]
      refine ⟨rfl, rfl, ?_⟩
      simp only [Record.enter, Fate.leaves, he]
    · rw [h] at h'; cases h'
  | refused o hf hr =>
    obtain ⟨d, ⟨_, h'⟩ | ⟨h', _⟩⟩ := ofSection_read o hf
    · rw [h']
      refine ⟨rfl, rfl, ?_⟩
      simp only [Record.enter, Fate.leaves, isRecord_strip o.padded o.shape]
    · exact absurd hr h'
  | noFields o hf hr =>
    obtain ⟨d, ⟨h', _⟩ | ⟨_, h'⟩⟩ := ofSection_read o hf
    · exact absurd h' hr
    · rw [h']
      refine ⟨rfl, rfl, ?_⟩
      simp only [Record.enter, Fate.leaves, isRecord_strip o.padded o.shape]
  | record o =>
    obtain ⟨d, h', _, hs⟩ := isLine_read o
    rw [h']
    refine ⟨rfl, rfl, ?_⟩
    simp only [Record.enter, Fate.leaves, hs]

end Arinc
