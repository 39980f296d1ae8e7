import Verif.Py.Base

/-!
# Vocabulary for the pages of the example application: how a browser reads markup

Only what the templates use: tags with attribute values in double quotes, texts, and character references that are written in full.
-/

namespace Psion.Spec

open Psion

/-- Character references: what a text or an attribute value stands for. -/
def unref : PyStr → PyStr
  | 38 :: 97 :: 109 :: 112 :: 59 :: s => 38 :: unref s
  | 38 :: 108 :: 116 :: 59 :: s => 60 :: unref s
  | 38 :: 103 :: 116 :: 59 :: s => 62 :: unref s
  | 38 :: 113 :: 117 :: 111 :: 116 :: 59 :: s => 34 :: unref s
  | 38 :: 35 :: 51 :: 52 :: 59 :: s => 34 :: unref s
  | 38 :: 35 :: 51 :: 57 :: 59 :: s => 39 :: unref s
  | c :: s => c :: unref s
  | [] => []

/-- What a page consists of: texts, and tags. A tag is given by the pieces between its quotation marks, so that every second piece is
an attribute value: `<a href="x">` is `tag ["a href=", "x", ""]`. -/
inductive Piece
  | text (s : PyStr)
  | tag (pieces : List PyStr)
  deriving DecidableEq, Repr

/-- Where the reader is: in a text, in a tag, or in an attribute value; with what was read since then, in reverse. -/
inductive Reader
  | text (got : PyStr)
  | tag (pieces : List PyStr) (got : PyStr)
  | value (pieces : List PyStr) (got : PyStr)
  deriving DecidableEq, Repr

/-- Reads a part of a page. -/
def Reader.run : Reader → PyStr → List Piece × Reader
  | r, [] => ([], r)
  | .text got, c :: s =>
    if c = 60 then
      let (l, r) := Reader.run (.tag [] []) s
      (.text (unref got.reverse) :: l, r)
    else Reader.run (.text (c :: got)) s
  | .tag pieces got, c :: s =>
    if c = 62 then
      let (l, r) := Reader.run (.text []) s
      (.tag (pieces ++ [got.reverse]) :: l, r)
    else if c = 34 then Reader.run (.value (pieces ++ [got.reverse]) []) s
    else Reader.run (.tag pieces (c :: got)) s
  | .value pieces got, c :: s =>
    if c = 34 then Reader.run (.tag (pieces ++ [unref got.reverse]) []) s
    else Reader.run (.value pieces (c :: got)) s

/-- What is left at the end of the page: an unfinished tag is dropped. -/
def Reader.finish : Reader → List Piece
  | .text got => [.text (unref got.reverse)]
  | _ => []

/-- Reads a page. -/
def readHtml (page : PyStr) : List Piece :=
  (Reader.run (.text []) page).1 ++ (Reader.run (.text []) page).2.finish

/-- The text that a page shows beside a label, as in `<strong>label</strong><span>text</span>`. -/
def beside (label : PyStr) : List Piece → Option PyStr
  | [] => none
  | p :: l =>
    if p :: l.take 3 = [.text label, .tag [py! "/strong"], .text [], .tag [py! "span"]] then
      match l.drop 3 with
      | .text s :: .tag t :: _ => if t = [py! "/span"] then some s else none
      | _ => none
    else beside label l

/-- The markup of a page without its texts. -/
def tags (l : List Piece) : List (List PyStr) := l.filterMap fun
  | .tag t => some t
  | .text _ => none

/-- Where the first form of a page is sent to. -/
def formAction : List Piece → Option PyStr
  | [] => none
  | .tag (t :: value :: _) :: l => if t = py! "form action=" then some value else formAction l
  | _ :: l => formAction l

end Psion.Spec
