import Verif.Model.Base

/-! # XML tokens

`encoding/xml` is not modelled: a part is the sequence of tokens `RawToken` returns, and the error after them
(`io.EOF` at the end of the input). Only the local names of elements and attributes matter. -/

namespace Grate.Xlsx

open Grate

/-- An `xml.Token`. An empty element gives a start and an end. -/
inductive Tok where
  | start (name : Bytes) (attrs : List (Bytes × Bytes))
  | stop (name : Bytes)
  | chars (text : Bytes)
  /-- `xml.Comment`, `xml.ProcInst`, `xml.Directive` -/
  | other

/-- A part of the document. -/
structure Part where
  toks : List Tok
  fin : GoErr

end Grate.Xlsx
