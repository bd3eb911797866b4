import Verif.Model.RpcIo

/-!
Interruptions of the exports to text files (`shareloc/geomodels/rpc_writers.py`).  A text file is emptied when it is opened for
writing, and its characters are then written in order; the process, the disk quota or the machine can stop at any of them.
-/

namespace Shareloc
variable {K : Type} [Field K] [LinearOrder K]

/-- The characters of a text file: each line is ended by a newline (the `\n` of the `f.write` of rpc_writers.py:101-132).
`json.dump` does not write the last one (rpc_writers.py:180-181): its file is one of the truncations below. -/
def fileChars (t : Text) : List Char := t.flatMap fun l => l ++ ['\n']

/-- The lines of a file (iteration on the file object, rpc_readers.py:348-353); `cur` is the line being read, reversed. -/
def linesAux : Line → List Char → Text
  | cur, [] => if cur = [] then [] else [cur.reverse]
  | cur, c :: cs => if c = '\n' then cur.reverse :: linesAux [] cs else linesAux (c :: cur) cs

/-- The lines of a file (rpc_readers.py:348-353). -/
def linesOf (cs : List Char) : Text := linesAux [] cs

/-- The states in which an interrupted `with open(path, "w") as f: f.write(...)...` can leave the files
(rpc_writers.py:107-132, 180-181): not yet opened, or opened, with any number of the characters on the disk.  The completed
export is one of them. -/
def Interrupted (fs : Files K) (path : Line) (t : Text) (fs' : Files K) : Prop :=
  fs' = fs ∨ ∃ n, fs' = writeFile fs path (.text (linesOf ((fileChars t).take n)))

/-- The states in which an interrupted `rpc_writer` to a text format can leave the files (rpc_writers.py:39-60, 74-76). -/
def InterruptedWriter (env : IoEnv K) (fs : Files K) (p : RpcParams K) (path : Line) (format : String) (fs' : Files K) : Prop :=
  (format = "geotiff_rpb" ∧ Interrupted fs (rpbPath path) (rpbText env (toRio p true)) fs') ∨
  (format = "rpb" ∧ Interrupted fs path (rpbText env (toRio p true)) fs') ∨
  (format = "json" ∧ Interrupted fs path (jsonText env (toRio p true)) fs')

end Shareloc
