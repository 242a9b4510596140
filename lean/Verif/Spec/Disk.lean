import Verif.Model.Disk

/-! What is known of a file system, and where results belong. -/
namespace Verif.Spec.Disk
open Verif Verif.Folders Verif.Disk
open Verif.Images (paddedTo imageFile Written)

variable {C Img : Type}

/-- Everything is in a directory, and nothing is both a file and a directory. -/
structure Sound (d : Disk C) : Prop where
  base : ∀ a, d.dir ⟨a, []⟩ = true
  dirIn : ∀ a xs x, d.dir ⟨a, xs ++ [x]⟩ = true → d.dir ⟨a, xs⟩ = true
  fileIn : ∀ a xs x, d.file ⟨a, xs ++ [x]⟩ ≠ none → d.dir ⟨a, xs⟩ = true
  either : ∀ l, d.dir l = true → d.file l = none

/-- A plain file name. -/
def Plain (b : Str) : Prop := b ≠ [] ∧ '/' ∉ b

/-- The place below a directory. -/
def below (dir : Str) (bs : List Str) : Loc := ⟨(loc dir).abs, (loc dir).names ++ bs⟩

/-- Nothing on the way to a place, nor at it, is a file. -/
def NoFile (d : Disk C) (l : Loc) : Prop := ∀ k, d.file ⟨l.abs, l.names.take k⟩ = none

/-- The folders of images. -/
def kinds : List Str := ["Detection".toList, "Reprojection".toList]

/-- The name of the image of a frame. -/
def imageName (f : Nat) : Str := paddedTo 6 f ++ ".jpg".toList

/-- Directories that may be made. -/
def Made (save : Str) (x : Loc) : Prop :=
  (∃ k, x = ⟨(loc save).abs, (loc save).names.take k⟩) ∨
  ∃ kind ∈ kinds, x = below save [kind] ∨ ∃ c, x = below save [kind, paddedTo 3 c]

/-- Places of images. -/
def ImagePlace (save : Str) (x : Loc) : Prop := ∃ kind ∈ kinds, ∃ c f, x = below save [kind, paddedTo 3 c, imageName f]

/-- Nothing is in the way. -/
structure Clear (save : Str) (d : Disk C) : Prop where
  made : ∀ x, Made save x → d.file x = none
  image : ∀ x, ImagePlace save x → d.dir x = false

/-- The images of a camera have the names of frames, each once. -/
def Shaped (save kind : Str) (c : Nat) (ws : List (Written Img)) : Prop :=
  (∀ w ∈ ws, ∃ f, w.file = imageFile save kind c f) ∧ (ws.map (·.file)).Nodup

/-- The files of results besides the camera parameters. -/
def reportNames : List Str := ["calibrated_objects_data.yml".toList, "calibrated_objects_pose_data.yml".toList,
  "reprojection_error_data.yml".toList, "detected_keypoints_data.yml".toList]

/-- The file of the camera parameters, given the name in the configuration. -/
def cameraName (name : Str) : Str := if name = [] then "calibrated_cameras_data.yml".toList else name

end Verif.Spec.Disk
