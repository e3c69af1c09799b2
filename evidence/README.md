# Comparison with outputs printed in /repo

Evidence that the model follows the code; nothing here is a proof.

* `lean/Verif/Props/RepoTests.lean`: tables of the tests, from the printed mat.
* `lean/Verif/Props/Replay.lean`: tables of `test_mat.py` and of `jupyter-notebook.ipynb` (cells 17, 21, 28), from the seed.
* `mesh.txt`: the mesh of cell 28 computed by the model (`Replay.theMesh`): fiber, `s * 10^15`, `z * 10^15`, beam, constraint.
* `replay.c`: the model of `stiffness`, `constraint` and `solve` transcribed by hand to doubles (`gcc -O3 replay.c -lm && ./a.out`,
  a few seconds). It stops after 80 iterations at packing 3.03; cell 40 shows `Packing: 3.0 … 80/1000`.
* The model places 6 of the 100 fibers on the floor. The linear program then has 94 nonzero forces in a basic solution; cell 24 shows 94.
