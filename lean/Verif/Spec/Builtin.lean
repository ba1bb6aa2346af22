import Verif.Spec.Filters
import Verif.Model.Ascii
import Verif.Model.Synonyms

/-! The filters that come with the library, so that one can speak of all of them at once, and of
pipelines of them. -/

namespace Jargon

/-- A filter of the library with its configuration. -/
inductive Builtin where
  /-- `stemmer.English`, ...: with the snowball function -/
  | stemmer (stem : Bytes → Bytes)
  /-- `norm.NFC`, ... -/
  | norm (form : NormForm)
  /-- `ascii.Fold` -/
  | asciiFold
  /-- `stopwords.NewFilter(words, ignoreCase)` -/
  | stopwords (words : List Bytes) (ignoreCase : Bool)
  /-- `contractions.Expand`, with its table -/
  | contractions (table : StringMap)
  /-- `sigil.NewFilter`, in particular `twitter.Handles` and `twitter.Hashtags` -/
  | sigil (f : SigilFilter)
  /-- `synonyms.NewFilter(mappings, ignoreCase, ignoreRunes)`, in particular `stackoverflow.Tags` and
  the nba filter -/
  | synonyms (mappings : StringMap) (ignoreCase : Bool) (ignore : List Rune)
  /-- `TokenStream.Where` -/
  | where_ (p : Token → Bool)
  /-- `TokenStream.Words` -/
  | words
  /-- `TokenStream.Lemmas` -/
  | lemmas
  /-- `TokenStream.Distinct` -/
  | distinct

/-- The function in the model. -/
def Builtin.apply (E : Env) : Builtin → Filter
  | .stemmer stem => Jargon.stemmer E.U stem
  | .norm form => normFilter E.U form
  | .asciiFold => Jargon.asciiFold E.U
  | .stopwords stop ic => Jargon.stopwords E.U stop ic
  | .contractions m => expandWith E m
  | .sigil f => Jargon.sigil E.U f
  | .synonyms m ic ign => Jargon.synonyms E m ic ign
  | .where_ p => fun ts => ts.where p
  | .words => TokenStream.words
  | .lemmas => TokenStream.lemmas
  | .distinct => TokenStream.distinct

/-- What is assumed of golang.org/x/text/unicode/norm. -/
structure NormForm.Lawful (N : NormForm) : Prop where
  normal : ∀ s, N.isNormalString (N.string s) = true
  empty : N.isNormalString [] = true
  nonempty : ∀ s, N.string s = [] → s = []

/-- What the configuration and the third-party code behind it have to satisfy: a stem is not empty;
the normalization form is one; the scanner gets through the tables; a sigil is not empty. -/
def Builtin.OK (E : Env) : Builtin → Prop
  | .stemmer stem => ∀ s, stem s = [] → s = []
  | .norm form => form.Lawful
  | .contractions m => GoodTable E m
  | .sigil f => f.sigil ≠ []
  | .synonyms m _ _ => ∀ x ∈ m, (E.scan { data := x.1 }).2 = none
  | _ => True

/-- What a filter makes, whatever the stream, of the tokens `toks` followed by the end `e`. -/
def Makes (f : Filter) (toks : List Token) (e : End) (out : List Token) (e' : End) : Prop :=
  ∀ ts : TokenStream, ts.Yields toks e → (f ts).Yields out e'

/-- The tokens and the end between the filters of a pipeline, from the first filter to the last. -/
inductive Chain : List Filter → List Token → End → List Token → End → Prop
  | nil {toks : List Token} {e : End} : Chain [] toks e toks e
  | cons {f : Filter} {fs : List Filter} {toks mid out : List Token} {e e' e'' : End} :
      Makes f toks e mid e' → Chain fs mid e' out e'' → Chain (f :: fs) toks e out e''

/-- The errors by which filters report an inconsistency of their own. -/
def Err.Internal : Err → Prop
  | .ext _ => False
  | _ => True

end Jargon
