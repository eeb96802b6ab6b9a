# Executing the model (evidence of fidelity, not proof)

`lean/Verif/Exec/` instantiates the model at `Float` and runs `PyFlowGo.run` on a configuration file:

    cd lean && lake build Verif.Exec.Main
    lake env lean --run Verif/Exec/Main.lean /repo/resource/template_2.json /repo/resource/example_slope_profile.txt > out.csv
    python3 ../validation/compare.py out.csv /repo/results_flowgo/results_flowgo_template2_10m3s_valid.csv

Results:

* `template_2.json` vs. `results_flowgo_template2_10m3s_valid.csv`: same 30 columns in the same order, same
  108 rows, every number equal up to the six printed decimals (largest difference 5e-7).
* `template.json` vs. `results_flowgo_template_3m3s_valid.csv` (a reference made with an older version,
  which had no strain_rate column and logged vesicle_fraction 0): same 67 rows, all other columns equal up to
  the printed decimals.

No theorem depends on this; no code of /repo is executed.
