import Verif.Model.Url
import Verif.Spec.Url

/-!
# Which URLs the clients request: C99
-/

namespace Sigstore.Props

open Sigstore.Url Sigstore.Spec Sigstore.Tuf

/-! ## Lemmas about the library functions -/

theorem partition_of_not_mem (c : Char) : ∀ s : Str, c ∉ s → Url.partition c s = (s, none)
  | [], _ => rfl
  | x :: xs, h => by
    have h1 : x ≠ c := fun e => h (e ▸ List.mem_cons_self)
    have h2 := partition_of_not_mem c xs (fun e => h (List.mem_cons_of_mem _ e))
    rw [Url.partition, if_neg h1, h2]

theorem partition_append (c : Char) : ∀ s t : Str, c ∉ s → Url.partition c (s ++ c :: t) = (s, some t)
  | [], t, _ => by rw [List.nil_append, Url.partition, if_pos rfl]
  | x :: xs, t, h => by
    have h1 : x ≠ c := fun e => h (e ▸ List.mem_cons_self)
    have h2 := partition_append c xs t (fun e => h (List.mem_cons_of_mem _ e))
    rw [List.cons_append, Url.partition, if_neg h1, h2]

theorem splitOn_ne_nil (c : Char) (s : Str) : splitOn c s ≠ [] := by
  cases s with
  | nil => exact List.cons_ne_nil _ _
  | cons x xs =>
    rw [splitOn]
    split
    · exact List.cons_ne_nil _ _
    · split <;> exact List.cons_ne_nil _ _

theorem splitOn_of_not_mem (c : Char) : ∀ s : Str, c ∉ s → splitOn c s = [s]
  | [], _ => rfl
  | x :: xs, h => by
    have h1 : x ≠ c := fun e => h (e ▸ List.mem_cons_self)
    rw [splitOn, if_neg h1, splitOn_of_not_mem c xs (fun e => h (List.mem_cons_of_mem _ e))]

theorem splitOn_append (c : Char) : ∀ s t : Str, c ∉ s → splitOn c (s ++ c :: t) = s :: splitOn c t
  | [], t, _ => by rw [List.nil_append, splitOn, if_pos rfl]
  | x :: xs, t, h => by
    have h1 : x ≠ c := fun e => h (e ▸ List.mem_cons_self)
    rw [List.cons_append, splitOn, if_neg h1, splitOn_append c xs t (fun e => h (List.mem_cons_of_mem _ e))]

theorem takeWhile_split {α : Type} (p : α → Bool) (a b : List α) (ha : ∀ x ∈ a, p x = true)
    (hb : b = [] ∨ ∃ x t, b = x :: t ∧ p x = false) : (a ++ b).takeWhile p = a ∧ (a ++ b).dropWhile p = b := by
  induction a with
  | nil =>
    rcases hb with rfl | ⟨x, t, rfl, hx⟩
    · exact ⟨rfl, rfl⟩
    · constructor <;> simp [hx]
  | cons x xs ih =>
    have h1 := ha x List.mem_cons_self
    have h2 := ih fun y hy => ha y (List.mem_cons_of_mem _ hy)
    constructor
    · rw [List.cons_append, List.takeWhile_cons, if_pos h1, h2.1]
    · rw [List.cons_append, List.dropWhile_cons, if_pos h1, h2.2]

/-- without tabs and line breaks -/
def noBreaks (s : Str) : Str := s.filter fun c => c ≠ '\t' && c ≠ '\r' && c ≠ '\n'

theorem noBreaks_id (s : Str) (h : ∀ c ∈ s, c ≠ '\t' ∧ c ≠ '\r' ∧ c ≠ '\n') : noBreaks s = s := by
  rw [noBreaks, List.filter_eq_self]
  intro c hc
  obtain ⟨h1, h2, h3⟩ := h c hc
  simp [h1, h2, h3]

theorem noBreaks_follows {rest : Str} (h : FollowsAuthority rest) : FollowsAuthority (noBreaks rest) := by
  rcases h with rfl | ⟨c, t, rfl, h⟩
  · exact .inl rfl
  · refine .inr ⟨c, noBreaks t, ?_, h⟩
    unfold noBreaks
    rw [List.filter_cons, if_pos]
    rcases h with rfl | rfl | rfl <;> decide

theorem authority_noBreaks {o : Origin} (h : o.WF) : noBreaks o.authority = o.authority := by
  refine noBreaks_id _ fun c hc => ?_
  have := (h.2.2 c hc).1
  refine ⟨?_, ?_, ?_⟩ <;> (rintro rfl; revert this; decide)

theorem clean_origin {o : Origin} (h : o.WF) (rest : Str) : clean (o.text ++ rest) = o.text ++ noBreaks rest := by
  have key : ∀ s : Str, s ≠ [] → (∀ c ∈ s.head?, 32 < c.toNat) → noBreaks s = s →
      clean (s ++ rest) = s ++ noBreaks rest := by
    intro s hs h1 h2
    cases s with
    | nil => exact absurd rfl hs
    | cons c t =>
      have hc : ¬ c.toNat ≤ 32 := by have := h1 c rfl; omega
      unfold clean
      rw [List.cons_append, List.dropWhile_cons, if_neg (by simpa using hc), ← List.cons_append]
      show noBreaks ((c :: t) ++ rest) = _
      unfold noBreaks at h2 ⊢
      rw [List.filter_append, h2]
  apply key
  · rcases h.1 with e | e <;> (unfold Origin.text; rw [e]; simp)
  · rcases h.1 with e | e <;> (unfold Origin.text; rw [e]; intro c hc; cases hc; decide)
  · unfold Origin.text
    have e1 : noBreaks (o.scheme ++ "://".toList) = o.scheme ++ "://".toList := by
      rcases h.1 with e | e <;> rw [e] <;> rfl
    have e2 := authority_noBreaks h
    unfold noBreaks at e1 e2 ⊢
    rw [List.filter_append, e1, e2]

theorem splitScheme_origin {o : Origin} (h : o.WF) (dflt rest : Str) :
    splitScheme dflt (o.text ++ rest) = (o.scheme, "//".toList ++ o.authority ++ rest) := by
  have e : o.text ++ rest = o.scheme ++ ':' :: ("//".toList ++ o.authority ++ rest) := by
    unfold Origin.text
    rw [List.append_assoc, List.append_assoc, List.append_assoc]
    rfl
  rw [e, splitScheme]
  have hp : Url.partition ':' (o.scheme ++ ':' :: ("//".toList ++ o.authority ++ rest))
      = (o.scheme, some ("//".toList ++ o.authority ++ rest)) := by
    apply partition_append
    rcases h.1 with e | e <;> rw [e] <;> decide
  rw [hp]
  rcases h.1 with e | e <;> rw [e] <;> rfl

theorem splitNetloc_origin {o : Origin} (h : o.WF) {rest : Str} (hr : FollowsAuthority rest) :
    splitNetloc ("//".toList ++ o.authority ++ rest) = (o.authority, rest) := by
  have hs := takeWhile_split (fun c => !endsNetloc c) o.authority rest (by
    intro c hc
    obtain ⟨_, _, h1, h2, h3, _⟩ := h.2.2 c hc
    simp [endsNetloc, h1, h2, h3]) (by
    rcases hr with rfl | ⟨c, t, rfl, hc⟩
    · exact .inl rfl
    · refine .inr ⟨c, t, rfl, ?_⟩
      rcases hc with rfl | rfl | rfl <;> rfl)
  show splitNetloc ('/' :: '/' :: (o.authority ++ rest)) = _
  rw [splitNetloc, hs.1, hs.2]

theorem checkNetloc_origin (libs : UrlLibs) {o : Origin} (h : o.WF) : checkNetloc libs o.authority = .ok () := by
  have h1 : '[' ∉ o.authority := fun hc => (h.2.2 _ hc).2.2.2.2.2.1 rfl
  have h2 : ']' ∉ o.authority := fun hc => (h.2.2 _ hc).2.2.2.2.2.2 rfl
  have h3 : o.authority.any (fun c => decide (128 ≤ c.toNat)) = false := by
    rw [List.any_eq_false]
    intro c hc
    have := (h.2.2 c hc).2.1
    simp only [decide_eq_true_eq]
    omega
  unfold checkNetloc
  rw [if_neg (by rintro (⟨h, _⟩ | ⟨h, _⟩) <;> contradiction), if_neg (fun h => h1 h.1),
    if_neg (fun h => by rw [h3] at h; cases h.1)]

/-- how a URL is taken apart -/
theorem urlsplit_origin (libs : UrlLibs) {o : Origin} (h : o.WF) {rest : Str} (hr : FollowsAuthority rest) (dflt : Str) :
    urlsplit libs (o.text ++ rest) dflt =
      .ok ⟨o.scheme, o.authority, (Url.partition '?' (Url.partition '#' (noBreaks rest)).1).1,
        (Url.partition '?' (Url.partition '#' (noBreaks rest)).1).2.getD [], (Url.partition '#' (noBreaks rest)).2.getD []⟩ := by
  unfold urlsplit
  rw [clean_origin h, splitScheme_origin h]
  dsimp only
  rw [splitNetloc_origin h (noBreaks_follows hr)]
  dsimp only
  rw [checkNetloc_origin libs h]

theorem scheme_uses {o : Origin} (h : o.WF) :
    o.scheme ∈ usesParams ∧ o.scheme ∈ usesRelative ∧ o.scheme ∈ usesNetloc ∧ o.scheme ≠ [] := by
  rcases h.1 with e | e <;> rw [e] <;> decide

theorem text_ne_nil {o : Origin} (h : o.WF) (rest : Str) : o.text ++ rest ≠ [] := by
  rcases h.1 with e | e <;> (unfold Origin.text; rw [e]; simp)

theorem urlunparse_origin {o : Origin} (h : o.WF) (path : Str) (hp : path.head? = some '/') :
    urlunparse ⟨o.scheme, o.authority, path, [], [], []⟩ = o.text ++ path := by
  simp [urlunparse, h.2.1, hp, (scheme_uses h).2.2.2, Origin.text]

/-- joining a relative reference that has only a path -/
theorem urljoin_origin (libs : UrlLibs) {o : Origin} (h : o.WF) {rest : Str} (url : Str)
    (hu : url ≠ []) (hp : ∀ s ∈ usesParams, urlparse libs url s = .ok ⟨s, [], url, [], [], []⟩)
    (b : Parsed) (hb : urlparse libs (o.text ++ rest) [] = .ok b) (hbs : b.scheme = o.scheme) (hbn : b.netloc = o.authority)
    (hj : (joinPath b.path url).head? = some '/') :
    urljoin libs (o.text ++ rest) url = .ok (o.text ++ joinPath b.path url) := by
  obtain ⟨s1, s2, s3, _⟩ := scheme_uses h
  unfold urljoin
  rw [if_neg (text_ne_nil h rest), if_neg hu, hb]
  dsimp only
  rw [hbs, hp _ s1]
  dsimp only
  rw [if_neg (by rintro (g | g) <;> exact g (by first | rfl | exact s2)), if_neg (fun g => g.2 rfl),
    if_neg (fun g => hu g.1), if_pos s3, hbn, urlunparse_origin h _ hj]

theorem urlparse_origin (libs : UrlLibs) {o : Origin} (h : o.WF) {rest : Str} (hr : FollowsAuthority rest) :
    ∃ b, urlparse libs (o.text ++ rest) [] = .ok b ∧ b.scheme = o.scheme ∧ b.netloc = o.authority ∧
      b.path = (splitParams (Url.partition '?' (Url.partition '#' (noBreaks rest)).1).1).1 := by
  unfold urlparse
  rw [urlsplit_origin libs h hr]
  dsimp only
  rw [if_pos (scheme_uses h).1]
  exact ⟨_, rfl, rfl, rfl, rfl⟩

/-! ## Fulcio -/

theorem urlparse_signingCert (libs : UrlLibs) : ∀ s ∈ usesParams,
    urlparse libs "/api/v2/signingCert".toList s = .ok ⟨s, [], "/api/v2/signingCert".toList, [], [], []⟩ := by
  have h1 : ∀ s, urlsplit libs "/api/v2/signingCert".toList s = .ok ⟨s, [], "/api/v2/signingCert".toList, [], []⟩ := by
    intro s; rfl
  intro s hs
  unfold urlparse
  rw [h1]
  dsimp only
  rw [if_pos hs]
  rfl

theorem urlparse_trustBundle (libs : UrlLibs) : ∀ s ∈ usesParams,
    urlparse libs "/api/v2/trustBundle".toList s = .ok ⟨s, [], "/api/v2/trustBundle".toList, [], [], []⟩ := by
  have h1 : ∀ s, urlsplit libs "/api/v2/trustBundle".toList s = .ok ⟨s, [], "/api/v2/trustBundle".toList, [], []⟩ := by
    intro s; rfl
  intro s hs
  unfold urlparse
  rw [h1]
  dsimp only
  rw [if_pos hs]
  rfl

/-- **C99** The certificate request (which carries the identity token) goes to the origin of the configured URL, whatever
follows the origin in it; so does the request for the trust bundle. -/
theorem C99_fulcio_origin (libs : UrlLibs) (o : Origin) (h : o.WF) (rest : Str) (hr : FollowsAuthority rest) :
    fulcioSigningCertUrl libs (o.text ++ rest) = .ok (o.text ++ "/api/v2/signingCert".toList) ∧
    fulcioTrustBundleUrl libs (o.text ++ rest) = .ok (o.text ++ "/api/v2/trustBundle".toList) := by
  obtain ⟨b, hb, hs, hn, _⟩ := urlparse_origin libs h hr
  have j1 : joinPath b.path "/api/v2/signingCert".toList = "/api/v2/signingCert".toList := rfl
  have j2 : joinPath b.path "/api/v2/trustBundle".toList = "/api/v2/trustBundle".toList := rfl
  constructor
  · have := urljoin_origin libs h _ (by decide) (urlparse_signingCert libs) b hb hs hn (by rw [j1]; rfl)
    rw [j1] at this
    exact this
  · have := urljoin_origin libs h _ (by decide) (urlparse_trustBundle libs) b hb hs hn (by rw [j2]; rfl)
    rw [j2] at this
    exact this

/-! ## URLs with a path -/

/-- a configured URL: an origin, a path, and any number of slashes at the end -/
def configured (o : Origin) (segments : List Str) (slashes : Nat) : Str :=
  o.text ++ pathText segments ++ List.replicate slashes '/'

theorem pathText_follows (segments : List Str) (k : Nat) : FollowsAuthority (pathText segments ++ List.replicate k '/') := by
  cases segments with
  | nil =>
    cases k with
    | zero => exact .inl rfl
    | succ k => exact .inr ⟨_, _, rfl, .inl rfl⟩
  | cons s rest => exact .inr ⟨_, _, rfl, .inl rfl⟩

/-- a segment of a path or a dot segment -/
def IsPiece (s : Str) : Prop := s ≠ [] ∧ ∀ c ∈ s, c ≠ '/' ∧ c ≠ '?' ∧ c ≠ '#' ∧ c ≠ '\t' ∧ c ≠ '\r' ∧ c ≠ '\n'

theorem IsPiece.of {s : Str} (h : IsSegment s) : IsPiece s := ⟨h.1, h.2.2.2⟩

theorem pathText_chars {segments : List Str} (hs : ∀ s ∈ segments, IsPiece s) (k : Nat) :
    ∀ c ∈ pathText segments ++ List.replicate k '/', c ≠ '?' ∧ c ≠ '#' ∧ c ≠ '\t' ∧ c ≠ '\r' ∧ c ≠ '\n' := by
  have hslash : ('/' : Char) ≠ '?' ∧ ('/' : Char) ≠ '#' ∧ ('/' : Char) ≠ '\t' ∧ ('/' : Char) ≠ '\r' ∧ ('/' : Char) ≠ '\n' := by
    decide
  intro c hc
  rcases List.mem_append.1 hc with hc | hc
  · obtain ⟨s, hm, hc⟩ := List.mem_flatMap.1 hc
    rcases List.mem_cons.1 hc with rfl | hc
    · exact hslash
    · exact ((hs s hm).2 c hc).2
  · rw [List.eq_of_mem_replicate hc]
    exact hslash

/-- what is left of the path of a configured URL when it is taken apart -/
theorem configured_path {segments : List Str} (hs : ∀ s ∈ segments, IsPiece s) (k : Nat) :
    (splitParams (Url.partition '?' (Url.partition '#' (noBreaks (pathText segments ++ List.replicate (k + 1) '/'))).1).1).1
      = pathText segments ++ List.replicate (k + 1) '/' := by
  have hc := pathText_chars hs (k + 1)
  rw [noBreaks_id _ fun c h => (hc c h).2.2, partition_of_not_mem '#' _ fun h => (hc _ h).2.1 rfl]
  dsimp only
  rw [partition_of_not_mem '?' _ fun h => (hc _ h).1 rfl]
  dsimp only
  unfold splitParams splitLastSlash
  have hr : (pathText segments ++ List.replicate (k + 1) '/').reverse
      = '/' :: (List.replicate k '/' ++ (pathText segments).reverse) := by
    rw [List.reverse_append, List.reverse_replicate, List.replicate_succ, List.cons_append]
  rw [hr, List.takeWhile_cons, if_neg (by decide)]
  rfl

theorem splitOn_path {segments : List Str} (hs : ∀ s ∈ segments, IsPiece s) (k : Nat) :
    splitOn '/' (pathText segments ++ List.replicate (k + 1) '/') = [] :: segments ++ List.replicate (k + 1) [] := by
  have hk : ∀ k, splitOn '/' (List.replicate k '/') = [] :: List.replicate k [] := by
    intro k
    induction k with
    | zero => rfl
    | succ k ih => rw [List.replicate_succ, splitOn, if_pos rfl, ih, List.replicate_succ]
  induction segments with
  | nil => exact hk (k + 1)
  | cons s rest ih =>
    have h1 : '/' ∉ s := fun h => ((hs s List.mem_cons_self).2 _ h).1 rfl
    have h2 := ih fun x hx => hs x (List.mem_cons_of_mem _ hx)
    have e : pathText (s :: rest) ++ List.replicate (k + 1) '/'
        = '/' :: (s ++ (pathText rest ++ List.replicate (k + 1) '/')) := by
      simp [pathText]
    rw [e, splitOn, if_pos rfl]
    cases rest with
    | nil =>
      have : s ++ (pathText [] ++ List.replicate (k + 1) '/') = s ++ '/' :: List.replicate k '/' := rfl
      rw [this, splitOn_append _ _ _ h1, hk]
      rfl
    | cons s' rest' =>
      have e2 : pathText (s' :: rest') ++ List.replicate (k + 1) '/'
          = '/' :: (s' ++ (pathText rest' ++ List.replicate (k + 1) '/')) := by
        simp [pathText]
      rw [e2, splitOn, if_pos rfl] at h2
      rw [e2, splitOn_append _ _ _ h1]
      rw [List.cons_append, List.cons.injEq] at h2
      rw [h2.2]
      rfl

theorem resolve_segments (acc : List Str) : ∀ l : List Str, (∀ s ∈ l, s ≠ ".".toList ∧ s ≠ "..".toList) →
    resolve acc l = acc.reverse ++ l
  | [], _ => by rw [resolve, List.append_nil]
  | s :: rest, h => by
    obtain ⟨h1, h2⟩ := h s List.mem_cons_self
    rw [resolve, if_neg h2, if_neg h1, resolve_segments (s :: acc) rest fun x hx => h x (List.mem_cons_of_mem _ hx)]
    simp

theorem joinWith_path (segments : List Str) (l : List Str) (hl : l ≠ []) :
    joinWith '/' ([] :: segments ++ l) = pathText segments ++ '/' :: joinWith '/' l := by
  have key : ∀ segments : List Str, joinWith '/' (segments ++ l) = (segments.flatMap fun s => s ++ ['/']) ++ joinWith '/' l := by
    intro segments
    induction segments with
    | nil => rfl
    | cons s rest ih =>
      have : rest ++ l ≠ [] := by simp [hl]
      obtain ⟨x, xs, hx⟩ := List.exists_cons_of_ne_nil this
      rw [List.cons_append, hx, joinWith, ← hx, ih]
      · simp
      · simp
  have e : ∀ segments : List Str,
      '/' :: (segments.flatMap fun s => s ++ ['/']) = pathText segments ++ ['/'] := by
    intro segments
    induction segments with
    | nil => rfl
    | cons s rest ih =>
      rw [List.flatMap_cons, List.append_assoc, ← List.cons_append, List.singleton_append, ih]
      simp [pathText]
  rw [key ([] :: segments), List.flatMap_cons, List.nil_append, List.singleton_append, List.cons_append, ← List.cons_append, e]
  simp

theorem getLastD_concat (l : List Str) (a d : Str) : (l ++ [a]).getLastD d = a := by simp

/-- joining a URL with a path: empty segments disappear -/
theorem joinPath_pieces {segments : List Str} (hs : ∀ s ∈ segments, IsPiece s) (k : Nat) (url : Str) (x y : Str)
    (hu : url.head? ≠ some '/') (hxy : splitOn '/' url = [x, y]) (hx : IsSegment x) (hy : IsSegment y ∨ y = []) :
    joinPath (pathText segments ++ List.replicate (k + 1) '/') url =
      if joinWith '/' (resolve [] ([] :: segments ++ [x, y])) = [] then ['/']
      else joinWith '/' (resolve [] ([] :: segments ++ [x, y])) := by
  have hy' : y ≠ ".".toList ∧ y ≠ "..".toList := by
    rcases hy with h | rfl
    · exact ⟨h.2.1, h.2.2.1⟩
    · decide
  unfold joinPath
  rw [splitOn_path hs k, hxy]
  dsimp only
  have hlast : ([] :: segments ++ List.replicate (k + 1) ([] : Str)).getLastD [] = [] := by
    rw [List.replicate_succ', ← List.append_assoc, getLastD_concat]
  rw [if_neg hu]
  simp only [ne_eq, hlast, not_true_eq_false, if_false]
  have hd : dropEmpty ([] :: segments ++ List.replicate (k + 1) [] ++ [x, y]) = [] :: segments ++ [x, y] := by
    have e : [] :: segments ++ List.replicate (k + 1) [] ++ [x, y]
        = [] :: ((segments ++ List.replicate (k + 1) [] ++ [x]) ++ [y]) := by simp
    rw [e]
    have hf : (segments ++ List.replicate (k + 1) [] ++ [x]).filter (fun s => decide (s ≠ [])) = segments ++ [x] := by
      have f1 : segments.filter (fun s => decide (s ≠ [])) = segments := by
        rw [List.filter_eq_self]
        intro s h
        exact decide_eq_true (hs s h).1
      have f2 : (List.replicate (k + 1) ([] : Str)).filter (fun s => decide (s ≠ [])) = [] := by
        rw [List.filter_eq_nil_iff]
        intro s h
        rw [List.eq_of_mem_replicate h]
        decide
      have f3 : [x].filter (fun s => decide (s ≠ [])) = [x] := by simp [hx.1]
      rw [List.filter_append, List.filter_append, f1, f2, f3, List.append_nil]
    obtain ⟨z, zs, hz⟩ := List.exists_cons_of_ne_nil
      (show (segments ++ List.replicate (k + 1) ([] : Str) ++ [x]) ++ [y] ≠ [] by simp)
    rw [hz, dropEmpty, ← hz, List.dropLast_concat, hf]
    · simp
    · simp
  have hl : ([] :: segments ++ [x, y]).getLastD [] = y := by
    rw [show [] :: segments ++ [x, y] = ([] :: segments ++ [x]) ++ [y] by simp, getLastD_concat]
  have hn : ¬ (y = ".".toList ∨ y = "..".toList) := by
    rintro (h | h)
    · exact hy'.1 h
    · exact hy'.2 h
  rw [hd, hl]
  simp only [if_neg hn]

/-- joining a configured URL with a path of proper segments, the last of which may be empty -/
theorem joinPath_configured {segments : List Str} (hs : ∀ s ∈ segments, IsSegment s) (k : Nat) (url : Str) (x y : Str)
    (hu : url.head? ≠ some '/') (hxy : splitOn '/' url = [x, y]) (hx : IsSegment x) (hy : IsSegment y ∨ y = []) :
    joinPath (pathText segments ++ List.replicate (k + 1) '/') url = pathText segments ++ '/' :: x ++ '/' :: y := by
  have hy' : y ≠ ".".toList ∧ y ≠ "..".toList := by
    rcases hy with h | rfl
    · exact ⟨h.2.1, h.2.2.1⟩
    · decide
  rw [joinPath_pieces (fun s h => .of (hs s h)) k url x y hu hxy hx hy]
  have hr : resolve [] ([] :: segments ++ [x, y]) = [] :: segments ++ [x, y] := by
    rw [resolve_segments]
    · rfl
    · intro s h
      rcases List.mem_append.1 h with h | h
      · rcases List.mem_cons.1 h with rfl | h
        · decide
        · exact ⟨(hs s h).2.1, (hs s h).2.2.1⟩
      · rcases List.mem_cons.1 h with rfl | h
        · exact ⟨hx.2.1, hx.2.2.1⟩
        · rw [List.mem_singleton.1 h]; exact hy'
  have hj : joinWith '/' ([] :: segments ++ [x, y]) = pathText segments ++ '/' :: x ++ '/' :: y := by
    rw [joinWith_path _ _ (by simp)]
    simp [joinWith]
  rw [hr, hj, if_neg (by simp)]

theorem configured_append (o : Origin) (segments : List Str) (k : Nat) :
    configured o segments k ++ "/".toList = o.text ++ (pathText segments ++ List.replicate (k + 1) '/') := by
  unfold configured
  rw [List.replicate_succ', List.append_assoc, List.append_assoc]
  rfl

theorem urlparse_wellKnown (libs : UrlLibs) : ∀ s ∈ usesParams,
    urlparse libs ".well-known/openid-configuration".toList s
      = .ok ⟨s, [], ".well-known/openid-configuration".toList, [], [], []⟩ := by
  have h1 : ∀ s, urlsplit libs ".well-known/openid-configuration".toList s
      = .ok ⟨s, [], ".well-known/openid-configuration".toList, [], []⟩ := by
    intro s; rfl
  intro s hs
  unfold urlparse
  rw [h1]
  dsimp only
  rw [if_pos hs]
  rfl

theorem urlparse_targets (libs : UrlLibs) : ∀ s ∈ usesParams,
    urlparse libs "targets/".toList s = .ok ⟨s, [], "targets/".toList, [], [], []⟩ := by
  have h1 : ∀ s, urlsplit libs "targets/".toList s = .ok ⟨s, [], "targets/".toList, [], []⟩ := by
    intro s; rfl
  intro s hs
  unfold urlparse
  rw [h1]
  dsimp only
  rw [if_pos hs]
  rfl

/-- **C99** The configuration of an OIDC issuer is requested from the place that OpenID Connect Discovery (section 4)
prescribes: the issuer's URL without slashes at the end, followed by `/.well-known/openid-configuration`. -/
theorem C99_issuer (libs : UrlLibs) (o : Origin) (h : o.WF) (segments : List Str) (hs : ∀ s ∈ segments, IsSegment s) (k : Nat) :
    oidcConfigUrl libs (configured o segments k) =
      .ok (o.text ++ pathText segments ++ "/.well-known/openid-configuration".toList) := by
  obtain ⟨b, hb, h1, h2, h3⟩ := urlparse_origin libs h (pathText_follows segments (k + 1))
  rw [configured_path (fun s h => .of (hs s h)) k] at h3
  have hj := joinPath_configured hs k ".well-known/openid-configuration".toList ".well-known".toList
    "openid-configuration".toList (by decide) (by rfl) (by unfold IsSegment; decide) (.inl (by unfold IsSegment; decide))
  have := urljoin_origin libs h _ (by decide) (urlparse_wellKnown libs) b hb h1 h2 (by
    rw [h3, hj]; cases segments <;> rfl)
  unfold oidcConfigUrl
  rw [configured_append, this, h3, hj]
  simp

theorem resolve_up {x : Str} (hx : IsSegment x) (rest : List Str) : ∀ (pre acc : List Str),
    resolve acc (pre ++ x :: "..".toList :: rest) = resolve acc (pre ++ rest)
  | [], acc => by
    rw [List.nil_append, resolve, if_neg hx.2.2.1, if_neg hx.2.1, resolve, if_pos rfl]
    rfl
  | s :: pre, acc => by
    rw [List.cons_append, resolve, List.cons_append, resolve, resolve_up hx rest pre, resolve_up hx rest pre, resolve_up hx rest pre]

theorem resolve_here (rest : List Str) : ∀ (pre acc : List Str),
    resolve acc (pre ++ ".".toList :: rest) = resolve acc (pre ++ rest)
  | [], acc => by rw [List.nil_append, resolve, if_neg (by decide), if_pos rfl]; rfl
  | s :: pre, acc => by
    rw [List.cons_append, resolve, List.cons_append, resolve, resolve_here rest pre, resolve_here rest pre, resolve_here rest pre]

/-- **C99** Dot segments in the URL of an issuer are resolved as RFC 3986, section 5.2.4 says, so the place is then not the one
that is written: `a/..` and `.` disappear. -/
theorem C99_issuer_dots (libs : UrlLibs) (o : Origin) (h : o.WF) (pre post : List Str) (x : Str)
    (h1 : ∀ s ∈ pre, IsSegment s) (h2 : ∀ s ∈ post, IsSegment s) (hx : IsSegment x) (k : Nat) :
    oidcConfigUrl libs (configured o (pre ++ x :: "..".toList :: post) k) =
      .ok (o.text ++ pathText (pre ++ post) ++ "/.well-known/openid-configuration".toList) ∧
    oidcConfigUrl libs (configured o (pre ++ ".".toList :: post) k) =
      .ok (o.text ++ pathText (pre ++ post) ++ "/.well-known/openid-configuration".toList) := by
  have hs : ∀ s ∈ pre ++ post, IsSegment s := by
    intro s hs
    rcases List.mem_append.1 hs with hs | hs
    · exact h1 s hs
    · exact h2 s hs
  have key : ∀ segments : List Str, (∀ s ∈ segments, IsPiece s) →
      (∀ rest acc, resolve acc (segments ++ rest) = resolve acc (pre ++ post ++ rest)) →
      oidcConfigUrl libs (configured o segments k) =
        .ok (o.text ++ pathText (pre ++ post) ++ "/.well-known/openid-configuration".toList) := by
    intro segments hp hr
    obtain ⟨b, hb, b1, b2, b3⟩ := urlparse_origin libs h (pathText_follows segments (k + 1))
    rw [configured_path hp k] at b3
    have hj := joinPath_configured hs k ".well-known/openid-configuration".toList ".well-known".toList
      "openid-configuration".toList (by decide) (by rfl) (by unfold IsSegment; decide) (.inl (by unfold IsSegment; decide))
    have hj' : joinPath (pathText segments ++ List.replicate (k + 1) '/') ".well-known/openid-configuration".toList =
        joinPath (pathText (pre ++ post) ++ List.replicate (k + 1) '/') ".well-known/openid-configuration".toList := by
      rw [joinPath_pieces hp k _ ".well-known".toList "openid-configuration".toList (by decide) (by rfl)
          (by unfold IsSegment; decide) (.inl (by unfold IsSegment; decide)),
        joinPath_pieces (fun s h => .of (hs s h)) k _ ".well-known".toList "openid-configuration".toList (by decide) (by rfl)
          (by unfold IsSegment; decide) (.inl (by unfold IsSegment; decide))]
      have : ∀ rest, resolve [] ([] :: segments ++ rest) = resolve [] ([] :: (pre ++ post) ++ rest) := by
        intro rest
        rw [List.cons_append, List.cons_append, resolve, resolve]
        rw [if_neg (by decide), if_neg (by decide), if_neg (by decide), if_neg (by decide)]
        exact hr rest _
      rw [this]
    have := urljoin_origin libs h _ (by decide) (urlparse_wellKnown libs) b hb b1 b2 (by
      rw [b3, hj', hj]; cases pre <;> cases post <;> rfl)
    unfold oidcConfigUrl
    rw [configured_append, this, b3, hj', hj]
    simp
  have hdots : IsPiece "..".toList ∧ IsPiece ".".toList := by unfold IsPiece; decide
  constructor
  · refine key _ ?_ fun rest acc => ?_
    · intro s hm
      rcases List.mem_append.1 hm with hm | hm
      · exact .of (h1 s hm)
      · rcases List.mem_cons.1 hm with rfl | hm
        · exact .of hx
        · rcases List.mem_cons.1 hm with rfl | hm
          · exact hdots.1
          · exact .of (h2 s hm)
    · rw [List.append_assoc, List.append_assoc]
      exact resolve_up hx (post ++ rest) pre acc
  · refine key _ ?_ fun rest acc => ?_
    · intro s hm
      rcases List.mem_append.1 hm with hm | hm
      · exact .of (h1 s hm)
      · rcases List.mem_cons.1 hm with rfl | hm
        · exact hdots.2
        · exact .of (h2 s hm)
    · rw [List.append_assoc, List.append_assoc]
      exact resolve_here (post ++ rest) pre acc

/-- **C99** TUF targets are requested below the repository's URL (without slashes at the end), in `/targets/`. -/
theorem C99_tuf_targets (libs : UrlLibs) (o : Origin) (h : o.WF) (segments : List Str) (hs : ∀ s ∈ segments, IsSegment s)
    (k : Nat) :
    tufTargetsUrl libs (configured o segments k) = .ok (o.text ++ pathText segments ++ "/targets/".toList) := by
  have hstrip : stripSlashes (configured o segments k) = configured o segments 0 := by
    have hlast : ∃ s c, o.text ++ pathText segments = s ++ [c] ∧ c ≠ '/' := by
      rcases List.eq_nil_or_concat segments with rfl | ⟨l, s, rfl⟩
      · obtain ⟨a, c, hc⟩ := (List.eq_nil_or_concat o.authority).resolve_left h.2.1
        rw [List.concat_eq_append] at hc
        refine ⟨o.scheme ++ "://".toList ++ a, c, ?_, ?_⟩
        · show o.text ++ [] = _
          unfold Origin.text
          rw [hc]
          simp
        · exact (h.2.2 c (by rw [hc]; simp)).2.2.1
      · have hm := hs s (by simp)
        obtain ⟨a, c, hc⟩ := (List.eq_nil_or_concat s).resolve_left hm.1
        rw [List.concat_eq_append] at hc
        refine ⟨o.text ++ pathText l ++ '/' :: a, c, ?_, ?_⟩
        · rw [hc]
          simp [pathText]
        · exact (hm.2.2.2 c (by rw [hc]; simp)).1
    obtain ⟨s, c, e, hc⟩ := hlast
    unfold stripSlashes configured
    rw [e, List.reverse_append, List.reverse_replicate, List.reverse_append, List.reverse_singleton]
    have := (takeWhile_split (fun c => decide (c = '/')) (List.replicate k '/') ([c] ++ s.reverse)
      (fun x hx => by rw [List.eq_of_mem_replicate hx]; rfl) (.inr ⟨c, s.reverse, rfl, by simp [hc]⟩)).2
    rw [this]
    simp
  obtain ⟨b, hb, h1, h2, h3⟩ := urlparse_origin libs h (pathText_follows segments 1)
  rw [configured_path (fun s h => .of (hs s h)) 0] at h3
  have hj := joinPath_configured hs 0 "targets/".toList "targets".toList [] (by decide) (by rfl)
    (by unfold IsSegment; decide) (.inr rfl)
  have := urljoin_origin libs h _ (by decide) (urlparse_targets libs) b hb h1 h2 (by
    rw [h3, hj]; cases segments <;> rfl)
  unfold tufTargetsUrl
  rw [hstrip, configured_append, this, h3, hj]
  simp

/-- **C99** is false of Fulcio: the certificate request goes below the configured URL only if that has no path. -/
theorem C99_fulcio_iff (libs : UrlLibs) (o : Origin) (h : o.WF) (segments : List Str) (k : Nat) :
    fulcioSigningCertUrl libs (configured o segments k) =
        .ok (o.text ++ pathText segments ++ "/api/v2/signingCert".toList) ↔ segments = [] := by
  have := (C99_fulcio_origin libs o h _ (pathText_follows segments k)).1
  unfold configured
  rw [List.append_assoc, this]
  constructor
  · intro e
    injection e with e
    rw [List.append_assoc] at e
    have e := List.append_cancel_left e
    have := congrArg List.length e
    rw [List.length_append] at this
    cases segments with
    | nil => rfl
    | cons s rest => simp [pathText] at this
  · rintro rfl
    simp [pathText]

/-- **C99** is false of Rekor: the requests go below the configured URL only if that does not end in a slash (for either
API version). -/
theorem C99_rekor_iff (o : Origin) (segments : List Str) (k : Nat) :
    (rekorEntriesUrl (configured o segments k) = o.text ++ pathText segments ++ "/api/v1/log/entries".toList ↔ k = 0) ∧
    (rekorRetrieveUrl (configured o segments k) =
      o.text ++ pathText segments ++ "/api/v1/log/entries/retrieve/".toList ↔ k = 0) ∧
    (rekorV2EntriesUrl (configured o segments k) = o.text ++ pathText segments ++ "/api/v2/log/entries".toList ↔ k = 0) := by
  have key : ∀ t t' : Str, t = t' →
      (configured o segments k ++ t = o.text ++ pathText segments ++ t' ↔ k = 0) := by
    rintro t t' rfl
    unfold configured
    constructor
    · intro e
      have := congrArg List.length e
      simp only [List.length_append, List.length_replicate] at this
      omega
    · rintro rfl
      simp
  refine ⟨?_, ?_, ?_⟩
  · rw [← key _ _ (rfl : "/api/v1".toList ++ "/log".toList ++ "/entries".toList = "/api/v1/log/entries".toList)]
    simp [rekorEntriesUrl, rekorLogUrl]
  · rw [← key _ _ (rfl : "/api/v1".toList ++ "/log".toList ++ "/entries".toList ++ "/retrieve/".toList
      = "/api/v1/log/entries/retrieve/".toList)]
    simp [rekorRetrieveUrl, rekorEntriesUrl, rekorLogUrl]
  · rw [← key _ _ (rfl : "/api/v2".toList ++ "/log/entries".toList = "/api/v2/log/entries".toList)]
    simp [rekorV2EntriesUrl]

/-- an origin with a port, a path with a dot in a segment, three slashes -/
def exOrigin : Origin := ⟨"https".toList, "idp.example.com:8443".toList⟩

theorem exOrigin_wf : exOrigin.WF := by
  unfold exOrigin Origin.WF
  refine ⟨.inr rfl, by decide, by decide⟩

example (libs : UrlLibs) :
    oidcConfigUrl libs "https://idp.example.com:8443/realms/a.b///".toList =
      .ok "https://idp.example.com:8443/realms/a.b/.well-known/openid-configuration".toList :=
  C99_issuer libs exOrigin exOrigin_wf ["realms".toList, "a.b".toList] (by unfold IsSegment; decide) 3

example (libs : UrlLibs) :
    oidcConfigUrl libs "https://idp.example.com:8443/a/b/../c/".toList =
      .ok "https://idp.example.com:8443/a/c/.well-known/openid-configuration".toList :=
  (C99_issuer_dots libs exOrigin exOrigin_wf ["a".toList] ["c".toList] "b".toList (by unfold IsSegment; decide)
    (by unfold IsSegment; decide) (by unfold IsSegment; decide) 1).1

example (libs : UrlLibs) :
    fulcioSigningCertUrl libs "https://idp.example.com:8443/fulcio?x#y".toList =
      .ok "https://idp.example.com:8443/api/v2/signingCert".toList :=
  (C99_fulcio_origin libs exOrigin exOrigin_wf "/fulcio?x#y".toList (.inr ⟨_, _, rfl, .inl rfl⟩)).1

end Sigstore.Props
