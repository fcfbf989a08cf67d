import Verif.Path.Model

/-!
# The debug page

Model of the HTML page that `ServerErrorMiddleware` answers an exception with in debug mode
(/repo/lilya/middleware/server_error.py) with its templates (/repo/lilya/middleware/styles/errors.py), and of what it
answers without debug mode.

The traceback is given: a list of frames with file, function, line and the lines of the source file.
`str.format` on a template is written as the concatenation of the pieces of the template and the values.
-/

namespace Verif.DebugPage

open Verif

/-- `html.escape(s)` (CPython `html/__init__.py`): `&` first, then `<`, `>`, `"` and `'`; because `&` comes first,
the successive replacements are one replacement of each character. -/
def escapeChar (c : Char) : Str :=
  if c = '&' then "&amp;".toList
  else if c = '<' then "&lt;".toList
  else if c = '>' then "&gt;".toList
  else if c = '"' then "&quot;".toList
  else if c = '\'' then "&#x27;".toList
  else [c]

/-- `html.escape(s)`. -/
def escape (s : Str) : Str := s.flatMap escapeChar

/-- `html.escape(line).replace(" ", "&nbsp")` (/repo/lilya/middleware/server_error.py 235). -/
def escapeLine (s : Str) : Str := (escape s).flatMap fun c => if c = ' ' then "&nbsp".toList else [c]

/-- A frame of the traceback (`inspect.FrameInfo`): `context` is `frame.code_context or []` and `index` is
`frame.index or 0`. -/
structure Frame where
  filename : Str
  function : Str
  lineno : Nat
  context : List Str
  index : Nat

/-- A function that was active when the exception was raised, with the lines of its source file, if it is found. -/
structure Active where
  filename : Str
  function : Str
  lineno : Nat
  source : Option (List Str)

/-- `inspect.getframeinfo(tb, 7)` (CPython `inspect.py`): seven lines around the line, fewer if the file is shorter.
Natural numbers: `max(0, …)` is the cut-off subtraction. -/
def frameInfo (a : Active) : Frame :=
  match a.source with
  | none => ⟨a.filename, a.function, a.lineno, [], 0⟩
  | some lines =>
    let start := min (a.lineno - 1 - 7 / 2) (lines.length - 7)
    ⟨a.filename, a.function, a.lineno, (lines.drop start).take 7, a.lineno - 1 - start⟩

/-- `get_line` and `get_center_line` (/repo/lilya/middleware/styles/errors.py 103-116) up to `{lineno}`. -/
def lineOpen (center : Bool) : Str :=
  if center then
    "\n    <p class=\"center-line\"><span class=\"frame-line center-line\">\n    <span class=\"lineno\">".toList
  else "\n    <p><span class=\"frame-line\">\n    <span class=\"lineno\">".toList

/-- Between `{lineno}` and `{line}`. -/
def lineMid : Str := ".</span> ".toList

/-- After `{line}`. -/
def lineClose : Str := "</span></p>\n    ".toList

/-- `format_line` (/repo/lilya/middleware/server_error.py 222-249). -/
def formatLine (f : Frame) (i : Nat) (line : Str) : Str :=
  lineOpen (i = f.index) ++ Path.natToDec (f.lineno - f.index + i) ++ lineMid ++ escapeLine line ++ lineClose

/-- The lines of a frame (/repo/lilya/middleware/server_error.py 262-270); `i` is the index of the first one. -/
def codeContext (f : Frame) : Nat → List Str → Str
  | _, [] => []
  | i, l :: ls => formatLine f i l ++ codeContext f (i + 1) ls

/-- `get_frame` (/repo/lilya/middleware/styles/errors.py 89-100) up to the first `{frame_filename}`. -/
def frameA : Str :=
  "\n    <div class=\"frame-container\">\n    <p class=\"frame-title\">File <span class=\"frame-filename\">".toList

/-- `get_frame`, then up to `{frame_lineno}`. -/
def frameB : Str :=
  "</span>,\n        line <i>".toList

/-- `get_frame`, then up to `{frame_name}`. -/
def frameC : Str :=
  "</i>,\n        in <b>".toList

/-- `get_frame`, then up to the second `{frame_filename}`. -/
def frameD : Str :=
  "</b>\n        <span class=\"collapse-btn\" data-frame-id=\"".toList

/-- `get_frame`, after the second `{frame_lineno}`. -/
def frameE : Str :=
  "\" onclick=\"collapse(this)\">".toList

/-- `get_frame`, after `{collapse_button}`. -/
def frameF : Str :=
  "</span>\n        </p>\n        <div id=\"".toList

/-- `get_frame`, after the third `{frame_lineno}`. -/
def frameG : Str :=
  "\" class=\"source-code ".toList

/-- `get_frame`, after `{collapsed}`. -/
def frameH : Str :=
  "\">".toList

/-- `get_frame`, after `{code_context}`. -/
def frameZ : Str :=
  "</div>\n    </div>\n    ".toList

/-- `generate_frame_html` (/repo/lilya/middleware/server_error.py 251-281). -/
def frameHtml (f : Frame) (collapsed : Bool) : Str :=
  frameA ++ escape f.filename ++ frameB ++ Path.natToDec f.lineno ++ frameC ++ escape f.function ++ frameD ++
    escape f.filename ++ '-' :: Path.natToDec f.lineno ++ frameE ++
    (if collapsed then "+".toList else "&#8210;".toList) ++ frameF ++
    escape f.filename ++ '-' :: Path.natToDec f.lineno ++ frameG ++
    (if collapsed then "collapsed".toList else []) ++ frameH ++ codeContext f 0 f.context ++ frameZ

/-- The frames as they are written, the innermost first; only that one is not collapsed
(/repo/lilya/middleware/server_error.py 189-197). -/
def framesHtml : Bool → List Frame → Str
  | _, [] => []
  | collapsed, f :: fs => frameHtml f collapsed ++ framesHtml true fs

/-- `get_css_style` (/repo/lilya/middleware/styles/errors.py 1-66), the first lines. -/
def cssHead : Str := "\n    <style type='text/css'>\n".toList

/-- `get_css_style` (/repo/lilya/middleware/styles/errors.py 1-66), the lines in between. -/
def cssLines : List Str := [
  "        p {\n".toList,
  "            color: #211c1c;\n".toList,
  "        }\n".toList,
  "        .container {\n".toList,
  "            border: 1px solid #B33A3A;\n".toList,
  "        }\n".toList,
  "        .margin-top-none {\n".toList,
  "            margin-top: 0;\n".toList,
  "        }\n".toList,
  "        .title {\n".toList,
  "            background-color: #B33A3A;\n".toList,
  "            color: lemonchiffon;\n".toList,
  "            padding: 12px;\n".toList,
  "            font-size: 22px;\n".toList,
  "            font-weight: bolder;\n".toList,
  "        }\n".toList,
  "        .frame-line {\n".toList,
  "            padding-left: 10px;\n".toList,
  "            font-family: monospace;\n".toList,
  "        }\n".toList,
  "        .frame-filename {\n".toList,
  "            font-family: monospace;\n".toList,
  "        }\n".toList,
  "        .center-line {\n".toList,
  "            background-color: #B33A3A;\n".toList,
  "            color: #f9f6e1;\n".toList,
  "            padding: 5px 0px 5px 5px;\n".toList,
  "        }\n".toList,
  "        .lineno {\n".toList,
  "            margin-right: 5px;\n".toList,
  "        }\n".toList,
  "        .frame-container {\n".toList,
  "            background-color: #f9f6f6;\n".toList,
  "        }\n".toList,
  "        .frame-title {\n".toList,
  "            font-weight: unset;\n".toList,
  "            padding: 10px 10px 10px 10px;\n".toList,
  "            background-color: #ffe4e4;\n".toList,
  "            color: #191f21;\n".toList,
  "            font-size: 17px;\n".toList,
  "            border: 1px solid #c7dce8;\n".toList,
  "        }\n".toList,
  "        .collapse-btn {\n".toList,
  "            float: right;\n".toList,
  "            padding: 0px 5px 1px 5px;\n".toList,
  "            border: solid 1px #96aebb;\n".toList,
  "            cursor: pointer;\n".toList,
  "        }\n".toList,
  "        .collapsed {\n".toList,
  "            display: none;\n".toList,
  "        }\n".toList,
  "        .source-code {\n".toList,
  "            font-family: courier;\n".toList,
  "            font-size: small;\n".toList,
  "            padding-bottom: 10px;\n".toList,
  "        }\n".toList,
  "\n".toList]

/-- `get_css_style` (/repo/lilya/middleware/styles/errors.py 1-66), the last lines. -/
def cssEnd : Str := "    </style>\n    ".toList

/-- `get_css_style` (/repo/lilya/middleware/styles/errors.py 1-66). -/
def css : Str := cssHead ++ (cssLines.flatten ++ cssEnd)

/-- `get_js` (/repo/lilya/middleware/styles/errors.py 69-86), the first lines. -/
def jsHead : Str := "\n    <script type=\"text/javascript\">\n".toList

/-- `get_js` (/repo/lilya/middleware/styles/errors.py 69-86), the lines in between. -/
def jsLines : List Str := [
  "        function collapse(element){\n".toList,
  "            const frameId = element.getAttribute(\"data-frame-id\");\n".toList,
  "            const frame = document.getElementById(frameId);\n".toList,
  "\n".toList,
  "            if (frame.classList.contains(\"collapsed\")){\n".toList,
  "                element.innerHTML = \"&#8210;\";\n".toList,
  "                frame.classList.remove(\"collapsed\");\n".toList,
  "            } else {\n".toList,
  "                element.innerHTML = \"+\";\n".toList,
  "                frame.classList.add(\"collapsed\");\n".toList,
  "            }\n".toList,
  "        }\n".toList]

/-- `get_js` (/repo/lilya/middleware/styles/errors.py 69-86), the last lines. -/
def jsEnd : Str := "    </script>\n    ".toList

/-- `get_js` (/repo/lilya/middleware/styles/errors.py 69-86). -/
def js : Str := jsHead ++ (jsLines.flatten ++ jsEnd)

/-- `get_template_errors` (/repo/lilya/middleware/styles/errors.py 119-143), up to `{styles}`. -/
def pageA : Str :=
  "\n    <html>\n        <head>\n            <style type='text/css'>\n                ".toList

/-- `get_template_errors` (/repo/lilya/middleware/styles/errors.py 119-143), then up to `{error}`. -/
def pageB : Str :=
  "\n            </style>\n            <title>Lilya Debugger</title>\n        </head>\n        <body>\n            <h1>HTTP 500 Server Error</h1>\n            <h2>".toList

/-- `get_template_errors` (/repo/lilya/middleware/styles/errors.py 119-143), then up to `{exc_html}`. -/
def pageC : Str :=
  "</h2>\n            <div class=\"container\">\n                <p class=\"title margin-top-none\">Traceback</p>\n                <div>".toList

/-- `get_template_errors` (/repo/lilya/middleware/styles/errors.py 119-143), then up to `{js}`. -/
def pageD : Str :=
  "</div>\n            </div>\n            ".toList

/-- `get_template_errors` (/repo/lilya/middleware/styles/errors.py 119-143), the rest. -/
def pageE : Str :=
  "\n        </body>\n    </html>\n    ".toList

/-- `generate_html` (/repo/lilya/middleware/server_error.py 174-208): name of the class and text of the exception
(`exc_type_str` is the bare name before Python 3.13), and the active functions, the outermost first. -/
def page (type text : Str) (active : List Active) : Str :=
  pageA ++ css ++ pageB ++ (escape type ++ ": ".toList ++ escape text) ++ pageC ++
    framesHtml false (active.map frameInfo).reverse ++ pageD ++ js ++ pageE

/-- What the middleware answers with: the text of a `PlainText` or `HTMLResponse` with status 500, or what the
handler for 500 or `Exception` returns. -/
inductive Answer
  | plain (text : Str)
  | html (text : Str)
  | handler
deriving DecidableEq, Repr

/-- `handle_exception`, `error_response` and `debug_response` (/repo/lilya/middleware/server_error.py 79-103, 140-172):
`accept` is the header, empty if it is missing, and `trace` the text of the traceback (`traceback.format_exception`).
-/
def answer (debug : Bool) (hasHandler : Bool) (accept type text trace : Str) (active : List Active) : Answer :=
  if debug then
    if contains accept "text/html".toList then .html (page type text active) else .plain trace
  else if hasHandler then .handler
  else .plain "Internal Server Error".toList

end Verif.DebugPage
