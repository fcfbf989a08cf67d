import Verif.Responses.Model
import Verif.Disposition.Model

/-!
# Shortcuts for responses

Model of `abort` and the other shortcuts (/repo/lilya/contrib/responses/shortcuts.py), of `jsonify`
(/repo/lilya/contrib/responses/json.py) and `send_file` (/repo/lilya/contrib/responses/files.py), with
`HTTPException.__init__` (/repo/lilya/exceptions.py 51-73) and the handler of the framework for it
(/repo/lilya/middleware/exceptions.py 145-168).  Responses are those of the model of plain responses; the headers of a
caller
are a dictionary, which a response changes.
-/

namespace Verif.Shortcuts

open Verif Responses

/-- What `abort` can be given: nothing, a text, a dictionary or a list, or another object, which counts as true or
not. -/
inductive Detail (J : Type) where
  | none
  | text (s : Str)
  | json (v : J)
  | other (truthy : Bool)

/-- The surroundings: `json_encode`, and the phrases of `http.HTTPStatus`, which knows only some numbers. -/
structure Env (J : Type) where
  encode : J → Str
  phrase : Nat → Option Str

/-- An `HTTPException`: its status, its text, the headers and the response it carries. -/
structure HttpExc where
  status : Nat
  detail : Str
  headers : Headers
  response : Option Resp

/-- `HTTPException.__init__` (/repo/lilya/exceptions.py 60-73) without positional arguments; `none` is the
`ValueError` of
`http.HTTPStatus`. -/
def httpException {J : Type} (e : Env J) (status : Nat) (detail : Str) (headers : Headers) (response : Option Resp) :
    Option HttpExc :=
  let st := if status = 0 then 500 else status
  if detail.isEmpty then (e.phrase st).map fun p => ⟨st, p, headers, response⟩
  else some ⟨st, detail, headers, response⟩

/-- The character set of responses (/repo/lilya/responses.py 85). -/
def utf8 : Str := "utf-8".toList

/-- `JSONResponse(content, status_code, headers)` (/repo/lilya/responses.py 437-480). -/
def jsonConf (st : Nat) : Conf := ⟨st, some "application/json".toList, utf8⟩

/-- `Response(content, status_code, headers)`, without a media type (/repo/lilya/responses.py 83). -/
def bareConf (st : Nat) : Conf := ⟨st, none, utf8⟩

/-- `PlainText(content, status_code, headers)` (/repo/lilya/responses.py 378-379). -/
def textConf (st : Nat) : Conf := ⟨st, some "text/plain".toList, utf8⟩

/-- `abort` (/repo/lilya/contrib/responses/shortcuts.py 63-73): the exception it raises; `none` is another exception,
the
`AttributeError` of `make_response` for an object that has no `encode` (/repo/lilya/responses.py 205-207) or the
    `ValueError`
above.  The response sets its defaults in the dictionary of the caller, which the exception gets too. -/
def abort {J : Type} (e : Env J) (status : Nat) (detail : Detail J) (headers : Headers) : Option HttpExc :=
  match detail with
  | .json v =>
    httpException e status [] (newCaller (jsonConf status) (.ready (e.encode v)) headers)
      (some (new (jsonConf status) (.ready (e.encode v)) headers))
  | .none => httpException e status [] headers none
  | .text s =>
    httpException e status s (newCaller (bareConf status) (.ready s) headers)
      (some (new (bareConf status) (.ready s) headers))
  | .other true => none
  | .other false =>
    httpException e status [] (newCaller (bareConf status) (.ready []) headers)
      (some (new (bareConf status) (.ready []) headers))

/-- The handler for `HTTPException` (/repo/lilya/middleware/exceptions.py 157-168). -/
def answer (x : HttpExc) : Resp :=
  match x.response with
  | some r => r
  | none =>
    if x.status = 204 || x.status = 304 then new (bareConf x.status) (.ready []) x.headers
    else new (textConf x.status) (.ready x.detail) x.headers

/-- What the client gets when a handler calls `abort`; `none` is an exception that nobody handles. -/
def aborted {J : Type} (e : Env J) (status : Nat) (detail : Detail J) (headers : Headers) : Option (List Msg) :=
  (abort e status detail headers).map fun x => (answer x).call

/-- `send_json` (/repo/lilya/contrib/responses/shortcuts.py 76-105). -/
def sendJson {J : Type} (e : Env J) (v : J) (status : Nat) (headers : Headers) : Resp :=
  new (jsonConf status) (.ready (e.encode v)) headers

/-- `json_error` (/repo/lilya/contrib/responses/shortcuts.py 108-137), where `wrap` makes `{"error": message}` of a
text. -/
def jsonError {J : Type} (e : Env J) (wrap : Str → J) (message : Str ⊕ J) (status : Nat) (headers : Headers) : Resp :=
  match message with
  | .inl s => sendJson e (wrap s) status headers
  | .inr v => sendJson e v status headers

/-- `unauthorized`, `forbidden` and `not_found` (/repo/lilya/contrib/responses/shortcuts.py 235-325). -/
def refused {J : Type} (e : Env J) (wrap : Str → J) (status : Nat) (message : Str) (headers : Headers) : Resp :=
  sendJson e (wrap message) status headers

/-- `empty` (/repo/lilya/contrib/responses/shortcuts.py 177-203). -/
def empty (status : Nat) (headers : Headers) : Resp := new (bareConf status) (.ready []) headers

/-- `jsonify` (/repo/lilya/contrib/responses/json.py 29-50), where `arr` and `obj` make a list and a dictionary, and
`cookie`
is the text of a cookie; `none` is `ImproperlyConfigured`.  `serializer.dumps` is the encoding. -/
def jsonify {J : Type} (e : Env J) (arr : List J → J) (obj : List (Str × J) → J) (cookie : Str → Str → Str)
    (args : List J) (kwargs : List (Str × J)) (status : Nat) (headers : Headers) (cookies : List (Str × Str)) :
    Option Resp :=
  let build (v : J) : Resp :=
    let r := sendJson e v status headers
    { r with headers := r.headers ++ cookies.map fun c => ("set-cookie".toList, cookie c.1 c.2) }
  match args, kwargs with
  | _ :: _, _ :: _ => none
  | [v], [] => some (build v)
  | v :: w :: vs, [] => some (build (arr (v :: w :: vs)))
  | [], kw => some (build (obj kw))

/-- What `send_file` is given: a path, of which only the last part matters here, or a file-like object. -/
inductive Source where
  | path (last : Str)
  | file

/-- The name of `send_file` (/repo/lilya/contrib/responses/files.py 32-36); an empty text counts as none. -/
def sendName (src : Source) (attachmentFilename : Str) : Str :=
  if attachmentFilename.isEmpty then
    match src with
    | .path last => last
    | .file => "download".toList
  else attachmentFilename

/-- The age for caches (/repo/lilya/contrib/responses/files.py 27-30). -/
def ageHeaders : Option Nat → Headers
  | some n => [("Cache-Control".toList, "public, max-age=".toList ++ Path.natToDec n)]
  | none => []

/-- The headers that `send_file` adds (/repo/lilya/contrib/responses/files.py 27-45): the age for caches, and the
disposition
of the response (/repo/lilya/responses.py 424-434, 1303-1314). -/
def sendFile (src : Source) (asAttachment : Bool) (attachmentFilename : Str) (maxAge : Option Nat) : Headers :=
  Disposition.addDisposition (some (if asAttachment then "attachment".toList else "inline".toList))
    (some (sendName src attachmentFilename)) (ageHeaders maxAge)

end Verif.Shortcuts
