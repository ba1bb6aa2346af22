import Verif.Model.Cli

/-! Model of `web/main.go`. -/

namespace Jargon

/-- `*http.Request`, as far as it is used. -/
structure Request where
  method : Bytes
  path : Bytes
  body : Reader

/-- `http.ResponseWriter`: the status, once written, the headers set by `cors`, and the body. -/
structure Response where
  status : Option Nat := none
  cors : Bool := false
  body : Bytes := []
deriving DecidableEq, Repr

/-- net/http `WriteHeader`: only the first call counts. -/
def Response.writeHeader (r : Response) (code : Nat) : Response :=
  { r with status := r.status.or (some code) }

/-- net/http `Write`: sends status 200 first if none was written. The connection is taken to accept the
bytes; if it does not, the client is gone. -/
def Response.write (r : Response) (p : Bytes) : Response :=
  { r.writeHeader 200 with body := r.body ++ p }

/-- When the handler returns without having written anything, net/http sends status 200. -/
def Response.finish (r : Response) : Response := r.writeHeader 200

/-- net/http `NotFound`. -/
def Response.notFound (r : Response) : Response :=
  (r.writeHeader 404).write (str "404 page not found\n")

/-- web/main.go:103-107 `cors`. -/
def cors (r : Response) : Response := { r with cors := true }

/-- `strings.Split(s, "/")`. -/
def splitSlash : Bytes → List Bytes
  | [] => [[]]
  | b :: s =>
    match splitSlash s with
    | [] => [[b]] -- not reachable
    | p :: ps => if b = 0x2F then [] :: p :: ps else (b :: p) :: ps

/-- html/template `htmlReplacementTable`, the escaper used for text between tags. -/
def templateEscapeByte (b : UInt8) : Bytes :=
  if b = 0 then [0xEF, 0xBF, 0xBD]
  else if b = 0x22 then str "&#34;"
  else if b = 0x26 then str "&amp;"
  else if b = 0x27 then str "&#39;"
  else if b = 0x2B then str "&#43;"
  else if b = 0x3C then str "&lt;"
  else if b = 0x3E then str "&gt;"
  else [b]

/-- html/template `htmlReplacer(s, htmlReplacementTable, true)`: it decodes rune by rune, but replaces
only ASCII characters and copies all other bytes, valid or not; so it works byte by byte. -/
def templateEscape (s : Bytes) : Bytes := s.flatMap templateEscapeByte

/-- web/main.go:95 `lemma`, executed with a token. -/
def lemmaTemplate (t : Token) : Bytes :=
  str "<span class=\"lemma\">" ++ templateEscape t.string ++ str "</span>"

/-- web/main.go:96 `plain`, executed with a token. -/
def plainTemplate (t : Token) : Bytes := templateEscape t.string

/-- web/main.go:61-85: the loop of `jargonHandler`; `b` is the buffer. Executing a template into a
`bytes.Buffer` does not fail. Logging is left out. -/
def webLoop {σ : Type} (call : NextFn σ) (s : TS σ) (w : Response) (b : Bytes) : Go (Response × Bytes) := do
  let (r, s) ← TS.next call s
  let w := if r.err.isSome then w.writeHeader 500 else w
  match r.tok with
  | none => pure (w, b)
  | some t =>
    if t.isLemma then webLoop call s w (b ++ lemmaTemplate t)
    else webLoop call s w (b ++ plainTemplate t)
partial_fixpoint

/-- web/main.go:57-92: what follows the choice of the tokenizer. -/
def webRespond (E : Env) (tokens : TokenStream) (w : Response) : Go Response := do
  let lemmatized := tokens.filter [tags E]
  let (w, b) ← webLoop lemmatized.call lemmatized.st w []
  -- `b.WriteTo(w)` writes nothing if the buffer is empty
  if b = [] then pure w else pure (w.write b)

/-- web/main.go:37-93 `jargonHandler`. -/
def jargonHandler (E : Env) (parse : HtmlParse) (w : Response) (r : Request) : Go Response :=
  match splitSlash r.path with
  | _ :: route :: _ =>
    if route = str "text" then webRespond E (tokenize E r.body) w
    else if route = str "html" then
      webRespond E (tokenizeHTML E (parse r.body).1 (parse r.body).2) w
    else Go.ret w.notFound
  | _ => Go.ret w.notFound

/-- web/main.go:27-35 `mainHandler`, with what net/http does after it returns. -/
def mainHandler (E : Env) (parse : HtmlParse) (r : Request) : Go Response := do
  let w := cors {}
  if r.method = str "OPTIONS" then pure w.finish
  else do
    let w ← jargonHandler E parse w r
    pure w.finish

/-- web/main.go:98-101 `healthCheckHandler`. -/
def healthCheckHandler (_ : Request) : Response := ((cors {}).write (str "ok")).finish

end Jargon
